import Verif.Proofs.Strings
import Verif.Proofs.Writer

/-! Lemmas about the Info dictionary: writing it and reading it back. -/

namespace Pdfer.Strings

open Pdfer.Go Pdfer.Spec Pdfer.Writer

theorem mem_takeWhile {α : Type} {p : α → Bool} {l : List α} {x : α} (h : x ∈ l.takeWhile p) : p x = true := by
  induction l with
  | nil => simp at h
  | cons a l ih =>
    rw [List.takeWhile_cons] at h
    split at h
    · simp only [List.mem_cons] at h
      rcases h with rfl | h
      · assumption
      · exact ih h
    · simp at h

/-- Every opening parenthesis is preceded by a backslash. -/
def ParenEsc (a : Bytes) : Prop := ∀ p q, a = p ++ 40 :: q → p.getLast? = some 92

theorem parenEsc_none {a : Bytes} (h : (40 : UInt8) ∉ a) : ParenEsc a := by
  rintro p q rfl; simp at h

theorem parenEsc_append {a b : Bytes} (ha : ParenEsc a) (hb : ParenEsc b) (h : b.head? ≠ some 40) :
    ParenEsc (a ++ b) := by
  intro p q e
  rcases List.append_eq_append_iff.1 e with ⟨r, h1, h2⟩ | ⟨r, h1, h2⟩
  · -- p = a ++ r, b = r ++ 40 :: q
    cases r with
    | nil => simp at h2; rw [h2] at h; simp at h
    | cons x r =>
      have := hb (x :: r) q h2
      rw [h1, List.getLast?_append, this]; rfl
  · cases r with
    | nil => simp at h2; rw [← h2] at h; simp at h
    | cons x r =>
      simp only [List.cons_append, List.cons.injEq] at h2
      obtain ⟨rfl, h3⟩ := h2
      exact ha p r h1

theorem parenEsc_flatMap {α : Type} (f : α → Bytes) (l : List α) (h : ∀ x ∈ l, ParenEsc (f x) ∧ (f x).head? ≠ some 40) :
    ParenEsc (l.flatMap f) ∧ (l.flatMap f).head? ≠ some 40 := by
  induction l with
  | nil => exact ⟨parenEsc_none (by simp), by simp⟩
  | cons a l ih =>
    rw [List.flatMap_cons]
    have ih' := ih (fun x hx => h x (by simp [hx]))
    have ha := h a (by simp)
    refine ⟨parenEsc_append ha.1 ih'.1 ih'.2, ?_⟩
    cases hf : f a with
    | nil => simpa using ih'.2
    | cons x xs => have := ha.2; rw [hf] at this; simpa using this

theorem parenEsc_escByte (c : UInt8) : ParenEsc (escByte c) ∧ (escByte c).head? ≠ some 40 := by
  by_cases h : c = 40
  · subst h
    refine ⟨?_, by decide⟩
    intro p q e
    rw [show escByte 40 = [92, 40] from rfl] at e
    match p with
    | [] => simp at e
    | [x] => simp at e; simp [e.1]
    | x :: y :: p => simp at e
  · have : (40 : UInt8) ∉ escByte c := by
      revert c; exact forall_byte (by decide +kernel)
    refine ⟨parenEsc_none this, ?_⟩
    intro e
    apply this
    exact List.mem_of_head? e

theorem parenEsc_escRune (r : Nat) : ParenEsc (escRune r) ∧ (escRune r).head? ≠ some 40 := by
  by_cases h : r = 40
  · subst h; exact parenEsc_escByte 40
  · have : (40 : UInt8) ∉ escRune r := by
      unfold escRune
      rw [if_neg h]
      repeat' split
      all_goals first
        | decide
        | skip
      intro hm
      by_cases hr : 0x80 ≤ r
      · have := writeRune_high r hr 40 hm
        revert this; decide
      · unfold writeRune at hm
        rw [if_pos (by omega)] at hm
        simp only [List.mem_cons, List.not_mem_nil, or_false, ← UInt8.toNat_inj] at hm
        rw [u8_toNat (by omega)] at hm
        simp at hm
        omega
    exact ⟨parenEsc_none this, fun e => this (List.mem_of_head? e)⟩

theorem parenEsc_escapeMeta (s : Bytes) : ParenEsc (escapeMeta s) := by
  rw [escapeMeta_eq]; exact (parenEsc_flatMap _ _ (fun x _ => parenEsc_escByte x)).1

theorem parenEsc_date (norm : Bytes → Bytes) (d : Bytes) : ParenEsc (formatPDFDate norm d) := by
  unfold formatPDFDate
  split
  · exact parenEsc_none (by simp)
  split
  · exact (parenEsc_flatMap _ _ (fun x _ => parenEsc_escRune x)).1
  · exact parenEsc_escapeMeta _

/-! ### Where the reader's expression cannot match -/

/-- A key the reader searches for. -/
structure SearchKey (key : Bytes) : Prop where
  slash : ∃ k, key = 47 :: k
  bs : (92 : UInt8) ∉ key
  sp : (32 : UInt8) ∉ key
  close : (41 : UInt8) ∉ key

theorem reInfo_some {key s : Bytes} (h : reInfo key s ≠ none) :
    ∃ r, s = key ++ r ∧ ∃ t, reSp0 r = 40 :: t := by
  unfold reInfo at h
  cases hl : reLit key s with
  | none => rw [hl] at h; simp at h
  | some r =>
    rw [hl] at h
    have h1 := reLit_prefix (l := key) (s := s) (by rw [hl]; simp)
    obtain ⟨r', hr'⟩ := h1
    subst hr'
    rw [reLit_append] at hl
    simp at hl
    subst hl
    refine ⟨r', rfl, ?_⟩
    simp only [Option.bind_some] at h
    cases hs : reSp0 r' with
    | nil => rw [hs] at h; simp [reLit] at h
    | cons x t =>
      rw [hs] at h
      by_cases hx : x = 40
      · exact ⟨t, by rw [hx]⟩
      · exfalso
        simp [reLit_ne (c := 40) (d := x) (l := []) (s := t) (fun e => hx e.symm)] at h

theorem reInfo_head {key : Bytes} (hk : SearchKey key) {c : UInt8} {s : Bytes} (hc : c ≠ 47) :
    reInfo key (c :: s) = none := by
  obtain ⟨k, rfl⟩ := hk.slash
  unfold reInfo
  rw [reLit_ne (fun e => hc e.symm)]
  rfl

/-- No match begins inside text whose parentheses are escaped. -/
theorem reInfo_value {key : Bytes} (hk : SearchKey key) (p u : Bytes) (hu : ParenEsc (p ++ u)) (c : UInt8)
    (hc : c = 41 ∨ c = 32) (T : Bytes) (hT : c = 32 → ∃ x T', T = x :: T' ∧ x ≠ 40 ∧ reSpace x = false) :
    reInfo key (u ++ c :: T) = none := by
  apply Classical.byContradiction
  intro hne
  obtain ⟨r, h1, t, h2⟩ := reInfo_some hne
  -- the key lies within u
  have hck : c ∉ key := by rcases hc with rfl | rfl; exact hk.close; exact hk.sp
  obtain ⟨u2, hu2, hr⟩ : ∃ u2, u = key ++ u2 ∧ r = u2 ++ c :: T := by
    rcases List.append_eq_append_iff.1 h1 with ⟨x, e1, e2⟩ | ⟨x, e1, e2⟩
    · cases x with
      | nil => exact ⟨[], by simpa using e1.symm, by simpa using e2.symm⟩
      | cons y x =>
        simp only [List.cons_append, List.cons.injEq] at e2
        exfalso
        apply hck
        rw [e1, e2.1]; simp
    · exact ⟨x, e1, e2⟩
  subst hr
  -- spaces
  have hsplit := List.takeWhile_append_dropWhile (p := reSpace) (l := u2)
  cases hd : u2.dropWhile reSpace with
  | nil =>
    rw [hd, List.append_nil] at hsplit
    have hall : ∀ x ∈ u2, reSpace x = true := by
      intro x hx; rw [← hsplit] at hx; exact mem_takeWhile hx
    unfold reSp0 at h2
    rw [List.dropWhile_append_of_pos hall] at h2
    rcases hc with rfl | rfl
    · rw [List.dropWhile_cons_of_neg (by decide)] at h2
      simp at h2
    · obtain ⟨x, T', rfl, hx1, hx2⟩ := hT rfl
      rw [List.dropWhile_cons_of_pos (by decide), List.dropWhile_cons_of_neg (by simp [hx2])] at h2
      simp only [List.cons.injEq] at h2
      exact hx1 h2.1
  | cons x u3 =>
    have hx : reSpace x = false := by
      have := List.head?_dropWhile_not reSpace u2
      rw [hd] at this
      simpa using this
    rw [hd] at hsplit
    have hall : ∀ y ∈ u2.takeWhile reSpace, reSpace y = true := fun y hy => mem_takeWhile hy
    unfold reSp0 at h2
    rw [← hsplit, List.append_assoc, List.dropWhile_append_of_pos hall, List.cons_append,
      List.dropWhile_cons_of_neg (by simp [hx])] at h2
    simp only [List.cons.injEq] at h2
    have hx40 := h2.1
    subst hx40
    have hpre := hu (p ++ (key ++ u2.takeWhile reSpace)) u3 (by conv => { lhs; rw [hu2, ← hsplit] }; simp)
    obtain ⟨k, hkk⟩ := hk.slash
    have hmem := List.mem_of_getLast? hpre
    have : (92 : UInt8) ∈ key ++ u2.takeWhile reSpace := by
      rw [List.getLast?_append] at hpre
      cases hg : (key ++ u2.takeWhile reSpace).getLast? with
      | none => rw [List.getLast?_eq_none_iff, hkk] at hg; simp at hg
      | some z => rw [hg] at hpre; simp at hpre; subst hpre; exact List.mem_of_getLast? hg
    rcases List.mem_append.1 this with h | h
    · exact hk.bs h
    · have := hall 92 h; revert this; decide

/-- Text in which no match begins, whatever position. -/
def Safe (key a t : Bytes) : Prop := ∀ x y, a = x ++ y → y ≠ [] → reInfo key (y ++ t) = none

theorem safe_append {key a b t : Bytes} (ha : Safe key a (b ++ t)) (hb : Safe key b t) : Safe key (a ++ b) t := by
  intro x y e hy
  rcases List.append_eq_append_iff.1 e with ⟨r, h1, h2⟩ | ⟨r, h1, h2⟩
  · exact hb r y h2 hy
  · subst h2
    cases r with
    | nil => exact hb [] b rfl (by simpa using hy)
    | cons z r => rw [List.append_assoc]; exact ha x (z :: r) h1 (by simp)

theorem safe_one {key : Bytes} (hk : SearchKey key) {c : UInt8} {t : Bytes} (h : c ≠ 47) : Safe key [c] t := by
  intro x y e hy
  cases x with
  | nil => simp at e; subst e; exact reInfo_head hk h
  | cons a x => simp at e; exact absurd e.2.2 hy

theorem safe_noslash {key : Bytes} (hk : SearchKey key) {a t : Bytes} (h : (47 : UInt8) ∉ a) : Safe key a t := by
  intro x y e hy
  cases y with
  | nil => exact absurd rfl hy
  | cons z y =>
    exact reInfo_head hk (by rintro rfl; rw [e] at h; simp at h)

theorem search_safe {key a t : Bytes} (h : Safe key a t) : searchWith (reInfo key) (a ++ t) = searchWith (reInfo key) t := by
  induction a with
  | nil => rfl
  | cons c a ih =>
    have h0 := h [] (c :: a) rfl (by simp)
    rw [List.cons_append] at h0 ⊢
    rw [searchWith, h0]
    exact ih (fun x y e hy => h (c :: x) y (by rw [e]; rfl) hy)

/-- A key of regular characters after the slash. -/
def GoodKey (k : Bytes) : Prop := ∃ k', k = 47 :: k' ∧ ∀ c ∈ k', c ≠ 47 ∧ c ≠ 40 ∧ reSpace c = false

theorem safe_key {key k : Bytes} (hk : SearchKey key) (hg : GoodKey k) (hne : k ≠ key) (t : Bytes) :
    Safe key k (32 :: t) := by
  obtain ⟨k', rfl, hreg⟩ := hg
  intro x y e hy
  cases x with
  | cons a x =>
    simp only [List.cons_append, List.cons.injEq] at e
    cases y with
    | nil => exact absurd rfl hy
    | cons z y =>
      exact reInfo_head hk (hreg z (by rw [e.2]; simp)).1
  | nil =>
    simp only [List.nil_append] at e
    subst e
    apply Classical.byContradiction
    intro hcon
    obtain ⟨r, h1, u, h2⟩ := reInfo_some hcon
    rcases List.append_eq_append_iff.1 h1 with ⟨w, e1, e2⟩ | ⟨w, e1, e2⟩
    · cases w with
      | nil => exact hne (by simpa using e1.symm)
      | cons z w =>
        simp only [List.cons_append, List.cons.injEq] at e2
        apply hk.sp
        rw [e1, e2.1]; simp
    · cases w with
      | nil => exact hne (by simpa using e1)
      | cons z w =>
        obtain ⟨kk, hkk⟩ := hk.slash
        have hz : z ∈ k' := by
          rw [hkk] at e1
          simp only [List.cons_append, List.cons.injEq, true_and] at e1
          rw [e1]; simp
        have := hreg z hz
        subst e2
        unfold reSp0 at h2
        rw [List.cons_append, List.dropWhile_cons_of_neg (by simp [this.2.2])] at h2
        simp only [List.cons.injEq] at h2
        exact this.2.1 h2.1

/-- A formatted string value. -/
theorem safe_value {key s : Bytes} (hk : SearchKey key) (hs : ParenEsc s) {z : UInt8} (hz : z ≠ 40 ∧ reSpace z = false) (t : Bytes) :
    Safe key (formatValue id (.str s) ++ b!" ") (z :: t) := by
  rw [formatValue]
  split
  · -- raw
    intro x y e hy
    rcases List.append_eq_append_iff.1 e with ⟨r, h1, h2⟩ | ⟨r, h1, h2⟩
    · -- y is a suffix of [32]
      cases r with
      | nil =>
        simp at h2; subst h2
        exact reInfo_head hk (by decide)
      | cons z r => simp at h2; exact absurd h2.2.2 hy
    · subst h2
      rw [List.append_assoc]
      exact reInfo_value hk x r (by rw [← h1]; exact hs) 32 (Or.inr rfl) (z :: t) (fun _ => ⟨z, t, rfl, hz⟩)
  · rw [List.append_assoc, List.append_assoc]
    refine safe_append (safe_one hk (by decide)) ?_
    intro x y e hy
    rcases List.append_eq_append_iff.1 e with ⟨r, h1, h2⟩ | ⟨r, h1, h2⟩
    · exact safe_noslash hk (a := b!")" ++ b!" ") (by decide) r y h2 hy
    · subst h2
      rw [List.append_assoc]
      exact reInfo_value hk x r (by rw [← h1]; exact hs) 41 (Or.inl rfl) _ (fun h => by simp at h)

/-- The text of one entry. -/
def entryText (e : Bytes × Bytes) : Bytes := slashKey e.1 ++ b!" " ++ e.2 ++ b!" "

theorem safe_entry {key : Bytes} (hk : SearchKey key) {k s : Bytes} (hg : GoodKey k) (hne : k ≠ key) (hs : ParenEsc s)
    {z : UInt8} (hz : z ≠ 40 ∧ reSpace z = false) (t : Bytes) : Safe key (entryText (k, formatValue id (.str s))) (z :: t) := by
  have hsk : slashKey k = k := by
    obtain ⟨k', rfl, _⟩ := hg
    unfold slashKey
    rw [if_pos (by simp)]
  simp only [entryText, hsk, List.append_assoc]
  refine safe_append ?_ (safe_append (safe_one hk (by decide)) (by simpa using safe_value hk hs hz t))
  simpa using safe_key hk hg hne _

theorem safe_entries {key : Bytes} (hk : SearchKey key) (l : List (Bytes × Bytes))
    (h : ∀ e ∈ l, GoodKey e.1 ∧ e.1 ≠ key ∧ ∃ s, ParenEsc s ∧ e.2 = formatValue id (.str s)) {z : UInt8} (hz : z ≠ 40 ∧ reSpace z = false)
    (t : Bytes) : Safe key (l.flatMap entryText) (z :: t) := by
  induction l with
  | nil => intro x y e hy; simp at e; exact absurd e.2 hy
  | cons e l ih =>
    rw [List.flatMap_cons]
    obtain ⟨h1, h2, s, h3, h4⟩ := h e (by simp)
    have ih' := ih (fun x hx => h x (by simp [hx]))
    refine safe_append ?_ ih'
    obtain ⟨y, u, hu, hy⟩ : ∃ y u, l.flatMap entryText ++ z :: t = y :: u ∧ y ≠ 40 ∧ reSpace y = false := by
      cases l with
      | nil => exact ⟨z, t, rfl, hz⟩
      | cons e' l =>
        obtain ⟨⟨k', hk', _⟩, _⟩ := h e' (by simp)
        rw [List.flatMap_cons, entryText, slashKey, hk']
        exact ⟨47, _, by simp; rfl, by decide⟩
    rw [hu]
    obtain ⟨k, v⟩ := e
    simp only at h4 h1 h2
    subst h4
    exact safe_entry hk h1 h2 h3 hy u

/-- What the reader finds in a dictionary of strings with escaped parentheses that stands in an object. -/
theorem readInfo_around {key : Bytes} (hk : SearchKey key) (pre post : Bytes) (hpre : (47 : UInt8) ∉ pre) (d : Dict) (hn : d.keys.Nodup)
    (hd : ∀ e ∈ d, GoodKey e.1 ∧ ∃ s, ParenEsc s ∧ e.2 = .str s) (v : Bytes)
    (hv : d.get key = some (.str (escapeMeta v))) (hclose : (41 : UInt8) ∉ v)
    (hraw : ((b!"/").isPrefixOf (escapeMeta v) || (b!" R").isSuffixOf (escapeMeta v)) = false) :
    readInfo key (pre ++ formatDictionary d ++ post) = some (unescapePDFString (escapeMeta v)) := by
  have hfe : formatEntries id d = d.map (fun e => (e.1, formatValue id e.2)) := by
    clear hn hd hv
    induction d with
    | nil => rfl
    | cons e d ih => obtain ⟨k, x⟩ := e; rw [formatEntries, ih]; rfl
  unfold formatDictionary formatDictOrd
  rw [formatValue, id, hfe, renderEntries]
  have hperm := sortBy_perm (fun a b : Bytes × Bytes => bytesLe a.1 b.1) (d.map (fun e => (e.1, formatValue id e.2)))
  generalize sortBy (fun a b : Bytes × Bytes => bytesLe a.1 b.1) (d.map (fun e => (e.1, formatValue id e.2))) = L at *
  have hLn : (L.map Prod.fst).Nodup := by
    rw [(hperm.map Prod.fst).nodup_iff]
    simpa [Map.keys, Function.comp_def] using hn
  have hmem : (key, formatValue id (.str (escapeMeta v))) ∈ L := by
    rw [hperm.mem_iff, List.mem_map]
    exact ⟨(key, .str (escapeMeta v)), (Map.get_eq_some_iff d hn _ _).1 hv, rfl⟩
  have hL : ∀ e ∈ L, GoodKey e.1 ∧ ∃ s, ParenEsc s ∧ e.2 = formatValue id (.str s) := by
    intro e he
    rw [hperm.mem_iff, List.mem_map] at he
    obtain ⟨x, hx, rfl⟩ := he
    obtain ⟨h1, s, h2, h3⟩ := hd x hx
    exact ⟨h1, s, h2, by rw [h3]⟩
  obtain ⟨L1, L2, rfl⟩ := List.append_of_mem hmem
  have hL1 : ∀ e ∈ L1, GoodKey e.1 ∧ e.1 ≠ key ∧ ∃ s, ParenEsc s ∧ e.2 = formatValue id (.str s) := by
    intro e he
    obtain ⟨h1, h2⟩ := hL e (by simp [he])
    refine ⟨h1, ?_, h2⟩
    intro heq
    rw [List.map_append, List.nodup_append] at hLn
    exact hLn.2.2 e.1 (List.mem_map_of_mem he) key (by simp) heq
  have hfm : (fun e : Bytes × Bytes => slashKey e.1 ++ b!" " ++ e.2 ++ b!" ") = entryText := rfl
  rw [hfm, List.flatMap_append, List.flatMap_cons]
  have hskey : slashKey key = key := by
    obtain ⟨k', rfl⟩ := hk.slash
    unfold slashKey
    rw [if_pos (by simp)]
  have hfv : formatValue id (.str (escapeMeta v)) = 40 :: (escapeMeta v ++ b!")") := by
    rw [formatValue, hraw]; simp
  have hk' := hk
  obtain ⟨kk, hkk⟩ := hk.slash
  have e1 : pre ++ (b!"<<" ++ (L1.flatMap entryText ++ (entryText (key, formatValue id (.str (escapeMeta v))) ++
      L2.flatMap entryText)) ++ b!">>") ++ post = ((pre ++ b!"<<") ++ L1.flatMap entryText) ++
      (key ++ (32 :: 40 :: (escapeMeta v ++ 41 :: (b!" " ++ (L2.flatMap entryText ++ (b!">>" ++ post)))))) := by
    simp [entryText, hskey, hfv]
  unfold readInfo
  rw [e1, search_safe, searchWith_here]
  · rfl
  · unfold reInfo
    rw [reLit_append]
    simp only [Option.bind_some]
    unfold reSp0
    rw [List.dropWhile_cons_of_pos (by decide), List.dropWhile_cons_of_neg (by decide),
      show ∀ s : Bytes, reLit b!"(" (40 :: s) = some s from fun s => reLit_append [40] s]
    simp only [Option.bind_some]
    rw [if_pos (by simp)]
    have hno : ∀ c ∈ escapeMeta v, c ≠ 41 := by
      rw [escapeMeta_eq]
      intro c hc
      obtain ⟨b, hb, hcb⟩ := List.mem_flatMap.1 hc
      rintro rfl
      have hb41 : b ≠ 41 := fun e => hclose (e ▸ hb)
      revert hcb
      unfold escByte
      repeat' split
      all_goals first
        | (simp; done)
        | skip
      simp only [List.mem_cons, List.not_mem_nil, or_false]
      exact fun e => hb41 e.symm
    rw [List.takeWhile_append_of_pos (by simpa using hno)]
    simp
  · refine safe_append (safe_noslash hk' (by simp [hpre])) ?_
    have := safe_entries hk' L1 hL1 (z := 47) (by decide) (kk ++ (32 :: 40 :: (escapeMeta v ++ 41 :: (b!" " ++ (L2.flatMap entryText ++ (b!">>" ++ post))))))
    rw [← List.cons_append, ← hkk] at this
    exact this

theorem readInfo_dict {key : Bytes} (hk : SearchKey key) (_hkg : GoodKey key) (d : Dict) (hn : d.keys.Nodup)
    (hd : ∀ e ∈ d, GoodKey e.1 ∧ ∃ s, ParenEsc s ∧ e.2 = .str s) (v : Bytes)
    (hv : d.get key = some (.str (escapeMeta v))) (hclose : (41 : UInt8) ∉ v)
    (hraw : ((b!"/").isPrefixOf (escapeMeta v) || (b!" R").isSuffixOf (escapeMeta v)) = false) :
    readInfo key (formatDictionary d) = some (unescapePDFString (escapeMeta v)) := by
  have := readInfo_around hk [] [] (by simp) d hn hd v hv hclose hraw
  simpa using this

/-- A key that the dictionary does not have is not found. -/
theorem readInfo_absent {key : Bytes} (hk : SearchKey key) (pre post : Bytes) (hpre : (47 : UInt8) ∉ pre) (hpost : (47 : UInt8) ∉ post) (d : Dict)
    (hd : ∀ e ∈ d, GoodKey e.1 ∧ ∃ s, ParenEsc s ∧ e.2 = .str s) (hno : key ∉ d.keys) :
    readInfo key (pre ++ formatDictionary d ++ post) = none := by
  have hfe : formatEntries id d = d.map (fun e => (e.1, formatValue id e.2)) := by
    clear hd hno
    induction d with
    | nil => rfl
    | cons e d ih => obtain ⟨k, x⟩ := e; rw [formatEntries, ih]; rfl
  unfold formatDictionary formatDictOrd
  rw [formatValue, id, hfe, renderEntries]
  have hperm := sortBy_perm (fun a b : Bytes × Bytes => bytesLe a.1 b.1) (d.map (fun e => (e.1, formatValue id e.2)))
  generalize sortBy (fun a b : Bytes × Bytes => bytesLe a.1 b.1) (d.map (fun e => (e.1, formatValue id e.2))) = L at *
  have hL : ∀ e ∈ L, GoodKey e.1 ∧ e.1 ≠ key ∧ ∃ s, ParenEsc s ∧ e.2 = formatValue id (.str s) := by
    intro e he
    rw [hperm.mem_iff, List.mem_map] at he
    obtain ⟨x, hx, rfl⟩ := he
    obtain ⟨h1, s, h2, h3⟩ := hd x hx
    exact ⟨h1, fun e => hno (by rw [← e]; exact List.mem_map_of_mem (f := Prod.fst) hx), s, h2, by rw [h3]⟩
  have hfm : (fun e : Bytes × Bytes => slashKey e.1 ++ b!" " ++ e.2 ++ b!" ") = entryText := rfl
  rw [hfm]
  have e1 : pre ++ (b!"<<" ++ L.flatMap entryText ++ b!">>") ++ post = ((pre ++ b!"<<") ++ L.flatMap entryText) ++ (62 :: (b!">" ++ post)) := by simp
  have e2 : searchWith (reInfo key) (62 :: (b!">" ++ post)) = none := by
    have := search_safe (safe_noslash hk (a := 62 :: (b!">" ++ post)) (t := []) (by simp [hpost]))
    rw [List.append_nil] at this
    rw [this]
    obtain ⟨k, rfl⟩ := hk.slash
    rfl
  unfold readInfo
  rw [e1, search_safe, e2]
  · rfl
  · exact safe_append (safe_noslash hk (by simp [hpre])) (safe_entries hk L hL (by decide) _)

/-! ### The dictionary SetMetadata builds -/

/-- Every entry is a string with escaped parentheses under a good key. -/
structure GoodDict (d : Dict) : Prop where
  nodup : d.keys.Nodup
  good : ∀ e ∈ d, GoodKey e.1 ∧ ∃ s, ParenEsc s ∧ e.2 = .str s

theorem goodDict_set {d : Dict} (h : GoodDict d) {k s : Bytes} (hk : GoodKey k) (hs : ParenEsc s) :
    GoodDict (d.set k (.str s)) := by
  refine ⟨Map.nodup_set _ _ _ h.nodup, ?_⟩
  intro e he
  simp only [Map.set, List.mem_cons] at he
  rcases he with rfl | he
  · exact ⟨hk, s, hs, rfl⟩
  · exact h.good e ((List.mem_filter.1 he).1)

theorem goodDict_putText {d : Dict} (h : GoodDict d) {k v : Bytes} (hk : GoodKey k) : GoodDict (putText k v d) := by
  unfold putText; split
  · exact h
  · exact goodDict_set h hk (parenEsc_escapeMeta v)

theorem goodDict_putDate {d : Dict} (h : GoodDict d) {norm : Bytes → Bytes} {k v : Bytes} (hk : GoodKey k) :
    GoodDict (putDate norm k v d) := by
  unfold putDate; split
  · exact h
  · exact goodDict_set h hk (parenEsc_date norm v)

theorem goodDict_putCustom (cs : List (Bytes × Bytes)) (hc : ∀ e ∈ cs, GoodKey (slashKey e.1)) {d : Dict} (h : GoodDict d) :
    GoodDict (putCustom cs d) := by
  unfold putCustom
  induction cs generalizing d with
  | nil => exact h
  | cons e cs ih =>
    rw [List.foldl_cons]
    apply ih (fun x hx => hc x (by simp [hx]))
    split
    · exact goodDict_set h (hc e (by simp)) (parenEsc_escapeMeta _)
    · exact h

theorem get_putCustom (cs : List (Bytes × Bytes)) (key : Bytes) (hc : ∀ e ∈ cs, slashKey e.1 ≠ key) (d : Dict) :
    (putCustom cs d).get key = d.get key := by
  unfold putCustom
  induction cs generalizing d with
  | nil => rfl
  | cons e cs ih =>
    rw [List.foldl_cons, ih (fun x hx => hc x (by simp [hx]))]
    split
    · exact Map.get_set_ne _ _ (fun e' => hc e (by simp) e'.symm)
    · rfl

theorem get_putText_eq (k v : Bytes) (d : Dict) (h : v ≠ []) : (putText k v d).get k = some (.str (escapeMeta v)) := by
  unfold putText; rw [if_neg h, Map.get_set_eq]

theorem get_putText_ne {k j : Bytes} (v : Bytes) (d : Dict) (h : j ≠ k) : (putText k v d).get j = d.get j := by
  unfold putText; split
  · rfl
  · exact Map.get_set_ne _ _ h

theorem get_putDate_ne {norm : Bytes → Bytes} {k j : Bytes} (v : Bytes) (d : Dict) (h : j ≠ k) :
    (putDate norm k v d).get j = d.get j := by
  unfold putDate; split
  · rfl
  · exact Map.get_set_ne _ _ h

theorem goodKey_lit (k : Bytes) (h : k.head? = some 47 ∧ k.tail.all (fun c => c ≠ 47 ∧ c ≠ 40 ∧ reSpace c = false) = true) :
    GoodKey k := by
  cases k with
  | nil => simp at h
  | cons c k =>
    refine ⟨k, by simp at h; rw [h.1], ?_⟩
    simpa using h.2

theorem goodDict_info (norm : Bytes → Bytes) (now : Bytes) (m : Metadata)
    (hc : ∀ e ∈ m.custom, GoodKey (slashKey e.1)) : GoodDict (infoDict norm now m) := by
  unfold infoDict
  apply goodDict_putCustom _ hc
  have h0 : GoodDict [] := ⟨by simp [Map.keys], by simp⟩
  have h1 : GoodDict (putDate norm b!"/ModDate" m.modDate (putDate norm b!"/CreationDate" m.creationDate
      (putText b!"/Producer" m.producer (putText b!"/Creator" m.creator (putText b!"/Keywords" m.keywords
      (putText b!"/Subject" m.subject (putText b!"/Author" m.author (putText b!"/Title" m.title [])))))))) := by
    refine goodDict_putDate (goodDict_putDate (goodDict_putText (goodDict_putText (goodDict_putText (goodDict_putText
      (goodDict_putText (goodDict_putText h0 ?_) ?_) ?_) ?_) ?_) ?_) ?_) ?_ <;>
    exact goodKey_lit _ (by decide)
  split
  · exact goodDict_set h1 (goodKey_lit _ (by decide)) (parenEsc_date _ _)
  · exact h1

theorem get_info (norm : Bytes → Bytes) (now : Bytes) (m : Metadata) (key v : Bytes)
    (hkv : (key, v) ∈ [(b!"/Title", m.title), (b!"/Author", m.author), (b!"/Subject", m.subject),
      (b!"/Keywords", m.keywords), (b!"/Creator", m.creator), (b!"/Producer", m.producer)])
    (hv : v ≠ []) (hc : ∀ e ∈ m.custom, slashKey e.1 ≠ key) :
    (infoDict norm now m).get key = some (.str (escapeMeta v)) := by
  unfold infoDict
  rw [get_putCustom _ _ hc]
  have hif : ∀ (d : Dict) (p : Prop) [Decidable p] (x : PVal), key ≠ b!"/ModDate" →
      (if p then d.set b!"/ModDate" x else d).get key = d.get key := by
    intro d p _ x h; split
    · exact Map.get_set_ne _ _ h
    · rfl
  simp only [List.mem_cons, Prod.mk.injEq, List.not_mem_nil, or_false] at hkv
  rcases hkv with ⟨rfl, rfl⟩ | ⟨rfl, rfl⟩ | ⟨rfl, rfl⟩ | ⟨rfl, rfl⟩ | ⟨rfl, rfl⟩ | ⟨rfl, rfl⟩
  · rw [hif _ _ _ (by decide), get_putDate_ne _ _ (by decide), get_putDate_ne _ _ (by decide),
      get_putText_ne _ _ (by decide), get_putText_ne _ _ (by decide), get_putText_ne _ _ (by decide),
      get_putText_ne _ _ (by decide), get_putText_ne _ _ (by decide), get_putText_eq _ _ _ hv]
  · rw [hif _ _ _ (by decide), get_putDate_ne _ _ (by decide), get_putDate_ne _ _ (by decide),
      get_putText_ne _ _ (by decide), get_putText_ne _ _ (by decide), get_putText_ne _ _ (by decide),
      get_putText_ne _ _ (by decide), get_putText_eq _ _ _ hv]
  · rw [hif _ _ _ (by decide), get_putDate_ne _ _ (by decide), get_putDate_ne _ _ (by decide),
      get_putText_ne _ _ (by decide), get_putText_ne _ _ (by decide), get_putText_ne _ _ (by decide),
      get_putText_eq _ _ _ hv]
  · rw [hif _ _ _ (by decide), get_putDate_ne _ _ (by decide), get_putDate_ne _ _ (by decide),
      get_putText_ne _ _ (by decide), get_putText_ne _ _ (by decide), get_putText_eq _ _ _ hv]
  · rw [hif _ _ _ (by decide), get_putDate_ne _ _ (by decide), get_putDate_ne _ _ (by decide),
      get_putText_ne _ _ (by decide), get_putText_eq _ _ _ hv]
  · rw [hif _ _ _ (by decide), get_putDate_ne _ _ (by decide), get_putDate_ne _ _ (by decide),
      get_putText_eq _ _ _ hv]

/-- A value that is not raw stays not raw when escaped. -/
theorem escape_not_raw (v : Bytes) (h1 : v.head? ≠ some 47) (h2 : ¬ b!" R" <:+ v) :
    ((b!"/").isPrefixOf (escapeMeta v) || (b!" R").isSuffixOf (escapeMeta v)) = false := by
  rw [escapeMeta_eq, Bool.or_eq_false_iff]
  constructor
  · cases v with
    | nil => rfl
    | cons c v =>
      simp at h1
      rw [List.flatMap_cons]
      have : ∀ c : UInt8, c ≠ 47 → (escByte c).head? ≠ some 47 ∧ escByte c ≠ [] := by
        apply forall_byte; decide +kernel
      have := this c h1
      cases he : escByte c with
      | nil => exact absurd he this.2
      | cons x xs =>
        rw [he] at this
        have h3 := this.1
        simp only [List.head?_cons, ne_eq, Option.some.injEq] at h3
        simp only [List.cons_append, List.isPrefixOf, Bool.and_true, beq_eq_false_iff_ne]
        exact fun e => h3 e.symm
  · rw [Bool.eq_false_iff]
    intro h
    rw [List.isSuffixOf_iff_suffix] at h
    apply h2
    obtain ⟨p, hp⟩ := h
    have key : ∀ c : UInt8, ((escByte c).getLast? = some 82 → escByte c = [82] ∧ c = 82) ∧
        ((escByte c).getLast? = some 32 → escByte c = [32] ∧ c = 32) := by
      apply forall_byte; decide +kernel
    induction v using snoc_induction with
    | nil => simp at hp
    | snoc v c _ =>
      rw [List.flatMap_append] at hp
      simp only [List.flatMap_cons, List.flatMap_nil, List.append_nil] at hp
      have hp2 : (p ++ [32]) ++ [82] = v.flatMap escByte ++ escByte c := by rw [← hp]; simp
      have hne : ∀ c : UInt8, escByte c ≠ [] := by apply forall_byte; decide +kernel
      have hl : (escByte c).getLast? = some 82 := by
        have := congrArg List.getLast? hp2
        rw [List.getLast?_append, List.getLast?_append (l := v.flatMap escByte)] at this
        cases he : (escByte c).getLast? with
        | none => rw [List.getLast?_eq_none_iff] at he; exact absurd he (hne c)
        | some z => rw [he] at this; simp at this; rw [this]
      obtain ⟨hq, rfl⟩ := (key c).1 hl
      rw [hq] at hp2
      have hp3 := List.append_cancel_right hp2
      cases hv : v.reverse with
      | nil => simp at hv; subst hv; simp at hp3
      | cons d v' =>
        have hv' : v = v'.reverse ++ [d] := by rw [← List.reverse_reverse v, hv]; simp
        subst hv'
        rw [List.flatMap_append] at hp3
        simp only [List.flatMap_cons, List.flatMap_nil, List.append_nil] at hp3
        have hl : (escByte d).getLast? = some 32 := by
          have := congrArg List.getLast? hp3
          rw [List.getLast?_append, List.getLast?_append (l := v'.reverse.flatMap escByte)] at this
          cases he : (escByte d).getLast? with
          | none => rw [List.getLast?_eq_none_iff] at he; exact absurd he (hne d)
          | some z => rw [he] at this; simp at this; rw [this]
        obtain ⟨_, rfl⟩ := (key d).2 hl
        exact ⟨v'.reverse, by simp⟩

end Pdfer.Strings
