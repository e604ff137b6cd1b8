import Verif.Model.PDFObject
import Verif.Proofs.Document

/-! C168: dictionaries read from the byte stream of the XFA package. -/

namespace Pdfer.Props

open Pdfer.Go Pdfer.PDFStream

/-! ### Specification: texts with matching brackets -/

/-- The inside of a string: parentheses only behind a backslash, and no backslash behind a backslash. -/
inductive StringText : Bytes → Prop
  | nil : StringText []
  | byte (c : UInt8) (r : Bytes) : c ∉ b!"()\\" → StringText r → StringText (c :: r)
  | escape (c : UInt8) (r : Bytes) : c ≠ 92 → StringText r → StringText (92 :: c :: r)

/-- A text whose brackets match.  With `slash = false` there is no `/` outside of brackets and
strings. -/
inductive Matching : Bool → Bytes → Prop
  | nil {b : Bool} : Matching b []
  | byte {b : Bool} (c : UInt8) (r : Bytes) : c ∉ b!"<>[]()\\" → (b = false → c ≠ 47) → Matching b r → Matching b (c :: r)
  | string {b : Bool} (s r : Bytes) : StringText s → Matching b r → Matching b (40 :: (s ++ 41 :: r))
  | array {b : Bool} (i r : Bytes) : Matching true i → Matching b r → Matching b (91 :: (i ++ 93 :: r))
  | dict {b : Bool} (i r : Bytes) : Matching true i → Matching b r → Matching b (60 :: 60 :: (i ++ 62 :: 62 :: r))

/-- A value that can be told from the keys around it: it begins with something, its brackets match, and names stand only in brackets. -/
structure ValueText (v : Bytes) : Prop where
  nonempty : v ≠ []
  starts : ∀ c, v.head? = some c → ws c = false
  matching : Matching false v

/-- A key: a slash and bytes that do not end a name. -/
def KeyName (k : Bytes) : Prop := ∃ t : Bytes, k = 47 :: t ∧ ∀ c ∈ t, nameEnd c = false

/-! ### Reading a value -/

/-- Outside of strings, at no negative depth. -/
structure Plain (s : Scan) : Prop where
  noskip : s.skip = false
  nostr : s.str = 0
  dict : 0 ≤ s.dict
  arr : 0 ≤ s.arr
  prev : s.prev ≠ 92

theorem scan_go (s : Scan) (c : UInt8) (r : Bytes)
    (h : s.skip = true ∨ s.top = false ∨ (¬ (c = 62 ∧ r.head? = some 62) ∧ c ≠ 47)) : scan s (c :: r) = scan (s.step c r) r + 1 := by
  rw [scan, if_neg]
  intro hc
  simp only [Bool.and_eq_true, Bool.not_eq_true', Bool.or_eq_true, beq_iff_eq] at hc
  rcases h with h | h | h
  · rw [h] at hc; simp at hc
  · rw [h] at hc; simp at hc
  · rcases hc.2 with h2 | h2
    · exact h.1 h2
    · exact h.2 h2.2

theorem scan_string (t rest : Bytes) (ht : StringText t) (s : Scan) (h1 : s.skip = false) (h2 : s.str = 1) (h3 : s.prev ≠ 92) :
    ∃ s' : Scan, s'.dict = s.dict ∧ s'.arr = s.arr ∧ s'.skip = false ∧ s'.str = 1 ∧ s'.prev ≠ 92 ∧ scan s (t ++ rest) = scan s' rest + t.length := by
  induction ht generalizing s with
  | nil => exact ⟨s, rfl, rfl, h1, h2, h3, rfl⟩
  | byte c t hc _ ih =>
    simp only [List.mem_cons, List.not_mem_nil, or_false, not_or] at hc
    have hs : s.step c (t ++ rest) = { s with prev := c } := by
      unfold Scan.step
      simp [h1, h2, hc]
    obtain ⟨s', e1, e2, e3, e4, e5, e6⟩ := ih { s with prev := c } h1 h2 hc.2.2
    refine ⟨s', e1, e2, e3, e4, e5, ?_⟩
    rw [List.cons_append, scan_go _ _ _ (.inr (.inl (by simp [Scan.top, h2]))), hs, e6]
    simp; omega
  | escape c t hc _ ih =>
    have hs : s.step 92 (c :: (t ++ rest)) = { s with prev := 92 } := by
      unfold Scan.step
      simp [h1, h2]
    have hs2 : ({ s with prev := 92 } : Scan).step c (t ++ rest) = { s with prev := c } := by
      unfold Scan.step
      simp [h1, h2]
    obtain ⟨s', e1, e2, e3, e4, e5, e6⟩ := ih { s with prev := c } h1 h2 hc
    refine ⟨s', e1, e2, e3, e4, e5, ?_⟩
    rw [List.cons_append, List.cons_append, scan_go _ _ _ (.inr (.inl (by simp [Scan.top, h2]))), hs,
      scan_go _ _ _ (.inr (.inl (by simp [Scan.top, h2]))), hs2, e6]
    simp; omega

theorem scan_matching (b : Bool) (v : Bytes) (h : Matching b v) :
    ∀ (s : Scan) (rest : Bytes), Plain s → (b = false ∨ 0 < s.dict + s.arr) →
    ∃ s' : Scan, Plain s' ∧ s'.dict = s.dict ∧ s'.arr = s.arr ∧ scan s (v ++ rest) = scan s' rest + v.length := by
  induction h with
  | nil => intro s rest hs _; exact ⟨s, hs, rfl, rfl, rfl⟩
  | @byte b c r hc hb _ ih =>
    intro s rest hs hd
    simp only [List.mem_cons, List.not_mem_nil, or_false, not_or] at hc
    have e : s.step c (r ++ rest) = { s with prev := c } := by
      unfold Scan.step
      simp [hs.noskip, hs.nostr, hc]
    have hgo : s.skip = true ∨ s.top = false ∨ (¬ (c = 62 ∧ (r ++ rest).head? = some 62) ∧ c ≠ 47) := by
      rcases hd with hd | hd
      · exact .inr (.inr ⟨fun h => hc.2.1 h.1, hb hd⟩)
      · refine .inr (.inl ?_)
        have := hs.dict
        have := hs.arr
        simp only [Scan.top, Bool.and_eq_false_iff, beq_eq_false_iff_ne]
        omega
    obtain ⟨s', p, e1, e2, e3⟩ := ih { s with prev := c } rest ⟨hs.noskip, hs.nostr, hs.dict, hs.arr, hc.2.2.2.2.2.2⟩ hd
    refine ⟨s', p, e1, e2, ?_⟩
    rw [List.cons_append, scan_go _ _ _ hgo, e, e3]
    simp; omega
  | @string b t r ht _ ih =>
    intro s rest hs hd
    have e : s.step 40 (t ++ 41 :: (r ++ rest)) = { s with prev := 40, str := 1 } := by
      unfold Scan.step
      simp [hs.noskip, hs.nostr, hs.prev]
    obtain ⟨s1, a1, a2, a3, a4, a5, a6⟩ := scan_string t (41 :: (r ++ rest)) ht { s with prev := 40, str := 1 } hs.noskip rfl (by simp)
    have e' : s1.step 41 (r ++ rest) = { s1 with prev := 41, str := 0 } := by
      unfold Scan.step
      simp [a3, a4, a5]
    obtain ⟨s', p, e1, e2, e3⟩ := ih { s1 with prev := 41, str := 0 } rest ⟨a3, rfl, by simp [a1, hs.dict], by simp [a2, hs.arr], by simp⟩
      (by simpa [a1, a2] using hd)
    refine ⟨s', p, e1.trans a1, e2.trans a2, ?_⟩
    rw [show (40 :: (t ++ 41 :: r)) ++ rest = 40 :: (t ++ 41 :: (r ++ rest)) by simp]
    rw [scan_go _ _ _ (.inr (.inr ⟨by simp, by decide⟩)), e, a6, scan_go _ _ _ (.inr (.inr ⟨by simp, by decide⟩)), e', e3]
    simp; omega
  | @array b i r _ _ ihi ih =>
    intro s rest hs hd
    have hd0 := hs.dict
    have ha0 := hs.arr
    have e : s.step 91 (i ++ 93 :: (r ++ rest)) = { s with prev := 91, arr := s.arr + 1 } := by
      unfold Scan.step
      simp [hs.noskip, hs.nostr]
    obtain ⟨s1, p1, a1, a2, a3⟩ := ihi { s with prev := 91, arr := s.arr + 1 } (93 :: (r ++ rest))
      ⟨hs.noskip, hs.nostr, hs.dict, by simp; omega, by simp⟩ (.inr (by simp; omega))
    have e' : s1.step 93 (r ++ rest) = { s1 with prev := 93, arr := s.arr } := by
      unfold Scan.step
      simp only at a2
      simp [p1.noskip, p1.nostr, a2]
    obtain ⟨s', p, e1, e2, e3⟩ := ih { s1 with prev := 93, arr := s.arr } rest ⟨p1.noskip, p1.nostr, p1.dict, by simpa using ha0, by simp⟩
      (by simpa [a1] using hd)
    refine ⟨s', p, e1.trans a1, e2, ?_⟩
    rw [show (91 :: (i ++ 93 :: r)) ++ rest = 91 :: (i ++ 93 :: (r ++ rest)) by simp]
    rw [scan_go _ _ _ (.inr (.inr ⟨by simp, by decide⟩)), e, a3, scan_go _ _ _ (.inr (.inr ⟨by simp, by decide⟩)), e', e3]
    simp; omega
  | @dict b i r _ _ ihi ih =>
    intro s rest hs hd
    have hd0 := hs.dict
    have ha0 := hs.arr
    have e : s.step 60 (60 :: (i ++ 62 :: 62 :: (r ++ rest))) = { s with prev := 60, dict := s.dict + 1, skip := true } := by
      unfold Scan.step
      simp [hs.noskip, hs.nostr]
    have e2 : ({ s with prev := 60, dict := s.dict + 1, skip := true } : Scan).step 60 (i ++ 62 :: 62 :: (r ++ rest)) =
        { s with prev := 60, dict := s.dict + 1, skip := false } := by
      unfold Scan.step
      simp
    obtain ⟨s1, p1, a1, a2, a3⟩ := ihi { s with prev := 60, dict := s.dict + 1, skip := false } (62 :: 62 :: (r ++ rest))
      ⟨rfl, hs.nostr, by simp; omega, hs.arr, by simp⟩ (.inr (by simp; omega))
    simp only at a1 a2
    have e3 : s1.step 62 (62 :: (r ++ rest)) = { s1 with prev := 62, dict := s.dict, skip := true } := by
      unfold Scan.step
      simp [p1.noskip, p1.nostr, a1]
    have e4 : ({ s1 with prev := 62, dict := s.dict, skip := true } : Scan).step 62 (r ++ rest) = { s1 with prev := 62, dict := s.dict, skip := false } := by
      unfold Scan.step
      simp
    obtain ⟨s', p, f1, f2, f3⟩ := ih { s1 with prev := 62, dict := s.dict, skip := false } rest ⟨rfl, p1.nostr, hd0, p1.arr, by simp⟩
      (by simpa [a2] using hd)
    refine ⟨s', p, f1, f2.trans a2, ?_⟩
    rw [show (60 :: 60 :: (i ++ 62 :: 62 :: r)) ++ rest = 60 :: 60 :: (i ++ 62 :: 62 :: (r ++ rest)) by simp]
    rw [scan_go _ _ _ (.inr (.inr ⟨by simp, by decide⟩)), e, scan_go _ _ _ (.inl rfl), e2, a3]
    rw [scan_go _ _ _ (.inr (.inl (by simp [Scan.top, a1]; omega))), e3, scan_go _ _ _ (.inl rfl), e4, f3]
    simp; omega

/-- What follows a value: a key, or the end of the dictionary. -/
def Follows (t : Bytes) : Prop := t.head? = some 47 ∨ t.take 2 = b!">>"

theorem readValue_text (pre v t : Bytes) (c : UInt8) (hv : ValueText v) (ht : Follows t) (hc : ws c = true) :
    readValue (pre ++ [c] ++ (v ++ 10 :: t)) (pre.length + 1) = (v ++ [10], pre.length + 1 + (v.length + 1)) := by
  have hd : (pre ++ [c] ++ (v ++ 10 :: t)).drop (pre.length + 1) = v ++ 10 :: t := List.drop_left' (by simp)
  have hp : (pre ++ [c] ++ (v ++ 10 :: t)).getD (pre.length + 1 - 1) 0 = c := by
    rw [Nat.add_sub_cancel, List.getD_eq_getElem?_getD]
    simp
  have hcs : c ≠ 92 := by rintro rfl; revert hc; decide
  obtain ⟨s', p, e1, e2, e3⟩ := scan_matching false v hv.matching { prev := c } (10 :: t) ⟨rfl, rfl, by simp, by simp, hcs⟩ (.inl rfl)
  have e4 : s'.step 10 t = { s' with prev := 10 } := by
    unfold Scan.step
    simp [p.noskip, p.nostr]
  have e5 : scan { s' with prev := 10 } t = 0 := by
    have htop : ({ s' with prev := 10 } : Scan).top = true := by simp [Scan.top, e1, e2, p.nostr]
    cases t with
    | nil => rfl
    | cons x r =>
      rw [scan, if_pos]
      rw [htop]
      simp only [p.noskip, Bool.not_false, Bool.true_and, Bool.or_eq_true, Bool.and_eq_true, beq_iff_eq]
      rcases ht with ht | ht
      · simp at ht
        exact .inr ⟨by decide, ht⟩
      · left
        cases r with
        | nil => simp at ht
        | cons y r => simp at ht; exact ⟨ht.1, by simp [ht.2]⟩
  have en : scan { prev := c } (v ++ 10 :: t) = v.length + 1 := by
    rw [e3, scan_go _ _ _ (.inr (.inr ⟨by simp, by decide⟩)), e4, e5]
    omega
  unfold readValue
  simp only
  rw [hp, hd, en]
  congr 1
  rw [show v ++ 10 :: t = (v ++ [10]) ++ t by simp, List.take_left' (by simp)]

/-! ### Reading a dictionary -/

/-- The entries as they are written. -/
def entriesText (es : List (Bytes × Bytes)) : Bytes := (es.flatMap fun e => e.1 ++ b!" " ++ e.2 ++ b!"\n") ++ b!">>"

theorem entries_follow (es : List (Bytes × Bytes)) (hk : ∀ e ∈ es, KeyName e.1) (rest : Bytes) : Follows (entriesText es ++ rest) := by
  cases es with
  | nil => right; rfl
  | cons e es =>
    obtain ⟨t, ht, _⟩ := hk e (by simp)
    left
    simp [entriesText, ht]

theorem skipWs_stay (d : Bytes) (p : Nat) (c : UInt8) (r : Bytes) (h : d.drop p = c :: r) (hc : ws c = false) : skipWs d p = p := by
  have hl := congrArg List.length h
  simp only [List.length_drop, List.length_cons] at hl
  unfold skipWs
  simp only
  rw [h, List.takeWhile_cons_of_neg (by simp [hc])]
  simp only [List.length_nil, Nat.add_zero]
  rw [if_neg (by omega)]

theorem skipWs_one (d : Bytes) (p : Nat) (x c : UInt8) (r : Bytes) (h : d.drop p = x :: c :: r) (hx : ws x = true) (hc : ws c = false) :
    skipWs d p = p + 1 := by
  have hl := congrArg List.length h
  simp only [List.length_drop, List.length_cons] at hl
  unfold skipWs
  simp only
  rw [h, List.takeWhile_cons_of_pos hx, List.takeWhile_cons_of_neg (by simp [hc])]
  simp only [List.length_cons, List.length_nil]
  rw [if_neg (by omega)]

theorem skipComment_stay (d : Bytes) (p : Nat) (c : UInt8) (r : Bytes) (h : d.drop p = c :: r) (hc : c ≠ 37) : skipComment d p = p := by
  unfold skipComment
  rw [h]
  split
  · rename_i heq; cases heq; exact absurd rfl hc
  · rfl

theorem dictLoop_entries (es : List (Bytes × Bytes)) (hk : ∀ e ∈ es, KeyName e.1) (hv : ∀ e ∈ es, ValueText e.2) (pre rest : Bytes) (fuel : Nat)
    (hf : es.length < fuel) :
    dictLoop (pre ++ (entriesText es ++ rest)) fuel pre.length = some (.ok (es.map fun e => (e.1, e.2 ++ b!"\n"))) := by
  induction es generalizing pre fuel with
  | nil =>
    obtain ⟨f, rfl⟩ : ∃ f, fuel = f + 1 := ⟨fuel - 1, by simp at hf; omega⟩
    have hd : (pre ++ (entriesText [] ++ rest)).drop pre.length = 62 :: 62 :: rest := List.drop_left' rfl
    unfold dictLoop
    simp only
    rw [skipWs_stay _ _ _ _ hd (by decide), skipComment_stay _ _ _ _ hd (by decide), hd]
    rfl
  | cons e es ih =>
    obtain ⟨f, rfl⟩ : ∃ f, fuel = f + 1 := ⟨fuel - 1, by simp at hf; omega⟩
    obtain ⟨k, v⟩ := e
    obtain ⟨t, ht, htn⟩ := hk (k, v) (by simp)
    have hval := hv (k, v) (by simp)
    simp only at ht hval
    subst ht
    obtain ⟨c, v', rfl⟩ : ∃ c v', v = c :: v' := by
      cases v with
      | nil => exact absurd rfl hval.nonempty
      | cons c v' => exact ⟨c, v', rfl⟩
    have hcw := hval.starts c rfl
    have hX : entriesText ((47 :: t, c :: v') :: es) ++ rest = 47 :: (t ++ 32 :: ((c :: v') ++ 10 :: (entriesText es ++ rest))) := by
      simp [entriesText]
    rw [hX]
    generalize hD : pre ++ (47 :: (t ++ 32 :: ((c :: v') ++ 10 :: (entriesText es ++ rest)))) = d
    have hd : d.drop pre.length = 47 :: (t ++ 32 :: ((c :: v') ++ 10 :: (entriesText es ++ rest))) := by rw [← hD]; exact List.drop_left' rfl
    have hq : d.drop (pre.length + 1 + t.length) = 32 :: c :: (v' ++ 10 :: (entriesText es ++ rest)) := by
      rw [← hD, show pre ++ (47 :: (t ++ 32 :: ((c :: v') ++ 10 :: (entriesText es ++ rest)))) = (pre ++ 47 :: t) ++ (32 :: c :: (v' ++ 10 :: (entriesText es ++ rest))) by simp]
      exact List.drop_left' (by simp; omega)
    have hname : readName d pre.length = some (47 :: t, pre.length + 1 + t.length) := by
      have htw : (t ++ 32 :: ((c :: v') ++ 10 :: (entriesText es ++ rest))).takeWhile (fun c => !nameEnd c) = t := by
        rw [List.takeWhile_append_of_pos (by intro x hx; simp [htn x hx]), List.takeWhile_cons_of_neg (by decide)]
        simp
      unfold readName
      rw [hd]
      simp only [htw]
    have hread : readValue d (pre.length + 1 + t.length + 1) = ((c :: v') ++ [10], pre.length + 1 + t.length + 1 + ((c :: v').length + 1)) := by
      have := readValue_text (pre ++ 47 :: t) (c :: v') (entriesText es ++ rest) 32 hval
        (entries_follow es (fun e he => hk e (by simp [he])) rest) (by decide)
      rw [show (pre ++ 47 :: t).length = pre.length + 1 + t.length by simp; omega] at this
      rw [← this, ← hD]
      congr 1
      simp
    have hrec := ih (fun e he => hk e (by simp [he])) (fun e he => hv e (by simp [he])) (pre ++ (47 :: (t ++ 32 :: ((c :: v') ++ [10])))) f
      (by simp at hf; omega)
    rw [show (pre ++ (47 :: (t ++ 32 :: ((c :: v') ++ [10])))) ++ (entriesText es ++ rest) = d by rw [← hD]; simp] at hrec
    have hlen : List.length (pre ++ ((47 : UInt8) :: (t ++ 32 :: ((c :: v') ++ [10])))) = pre.length + 1 + t.length + 1 + ((c :: v').length + 1) := by
      simp
      omega
    rw [hlen] at hrec
    unfold dictLoop
    simp only
    rw [skipWs_stay _ _ _ _ hd (by decide), skipComment_stay _ _ _ _ hd (by decide), hd, if_neg (by simp), hname]
    simp only
    rw [skipWs_one _ _ _ _ _ hq (by decide) hcw, hread]
    simp only
    rw [hrec]
    rfl

/-- A dictionary as it is written is read with its keys and values, in their order; every value has the newline behind it with it.  (Partial:
values with matching brackets, parentheses in strings escaped, no escaped backslashes, names only inside of brackets.) -/
theorem C168_read_partial (pre : Bytes) (es : List (Bytes × Bytes)) (hk : ∀ e ∈ es, KeyName e.1) (hv : ∀ e ∈ es, ValueText e.2) (rest : Bytes)
    (fuel : Nat) (hf : es.length < fuel) :
    parseDict (pre ++ (rebuildDict es ++ rest)) fuel pre.length = some (.ok (es.map fun e => (e.1, e.2 ++ b!"\n"))) := by
  have e : pre ++ (rebuildDict es ++ rest) = (pre ++ b!"<<\n") ++ (entriesText es ++ rest) := by simp [rebuildDict, entriesText]
  have h := dictLoop_entries es hk hv (pre ++ b!"<<\n") rest fuel hf
  have hd : (pre ++ (rebuildDict es ++ rest)).drop pre.length = 60 :: 60 :: 10 :: (entriesText es ++ rest) := by
    rw [List.drop_left' rfl]
    simp [rebuildDict, entriesText]
  have hd2 : (pre ++ (rebuildDict es ++ rest)).drop (pre.length + 2) = 10 :: (entriesText es ++ rest) := by
    rw [← List.drop_drop, hd]
    rfl
  have hd3 : (pre ++ (rebuildDict es ++ rest)).drop (pre.length + 3) = entriesText es ++ rest := by
    rw [← List.drop_drop, hd]
    rfl
  rw [← e, show (pre ++ b!"<<\n").length = pre.length + 3 by simp] at h
  generalize hD : pre ++ (rebuildDict es ++ rest) = d at *
  unfold parseDict
  rw [if_pos (by rw [hd]; rfl)]
  rw [← h]
  obtain ⟨f, rfl⟩ : ∃ f, fuel = f + 1 := ⟨fuel - 1, by omega⟩
  have hfo := entries_follow es hk rest
  have hs : skipWs d (pre.length + 2) = skipWs d (pre.length + 3) := by
    obtain ⟨c, r, hcr, hw⟩ : ∃ c r, entriesText es ++ rest = c :: r ∧ ws c = false := by
      cases hx : entriesText es ++ rest with
      | nil => rw [hx] at hfo; rcases hfo with h | h <;> simp at h
      | cons c r =>
        refine ⟨c, r, rfl, ?_⟩
        rw [hx] at hfo
        rcases hfo with h | h
        · simp at h; subst h; decide
        · cases r with
          | nil => simp at h
          | cons y r => simp at h; rw [h.1]; decide
    rw [skipWs_one d _ 10 c r (by rw [hd2, hcr]) (by decide) hw, skipWs_stay d _ c r (by rw [hd3, hcr]) hw]
  unfold dictLoop
  rw [hs]

/-- Such entries: an array with a name and strings in it, a dictionary in a dictionary, numbers. -/
example : (∀ e ∈ [(b!"/XFA", b!"[(datasets) 6 0 R /N]"), (b!"/D", b!"<</A[1]>>"), (b!"/Length", b!"12")], KeyName e.1) ∧
    Matching false b!"[(datasets) 6 0 R /N]" ∧ parseDict (rebuildDict [(b!"/XFA", b!"[(datasets) 6 0 R /N]"), (b!"/D", b!"<</A[1]>>"), (b!"/Length", b!"12")]) 4 0 =
      some (.ok [(b!"/XFA", b!"[(datasets) 6 0 R /N]\n"), (b!"/D", b!"<</A[1]>>\n"), (b!"/Length", b!"12\n")]) := by
  refine ⟨?_, ?_, by decide +kernel⟩
  · intro e he
    simp only [List.mem_cons, List.not_mem_nil, or_false] at he
    rcases he with rfl | rfl | rfl
    · exact ⟨b!"XFA", rfl, by decide⟩
    · exact ⟨b!"D", rfl, by decide⟩
    · exact ⟨b!"Length", rfl, by decide⟩
  · refine .array (b!"(datasets) 6 0 R /N") [] (.string b!"datasets" b!" 6 0 R /N" ?_ ?_) .nil
    · exact .byte _ _ (by decide) (.byte _ _ (by decide) (.byte _ _ (by decide) (.byte _ _ (by decide) (.byte _ _ (by decide) (.byte _ _ (by decide)
        (.byte _ _ (by decide) (.byte _ _ (by decide) .nil)))))))
    refine .byte _ _ (by decide) (by decide) (.byte _ _ (by decide) (by decide) (.byte _ _ (by decide) (by decide) (.byte _ _ (by decide) (by decide)
      (.byte _ _ (by decide) (by decide) (.byte _ _ (by decide) (by decide) (.byte _ _ (by decide) (by decide) (.byte _ _ (by decide) (by decide)
      (.byte _ _ (by decide) (by decide) .nil))))))))

/-- A string with escaped parentheses in it. -/
example : StringText b!"a\\(b" ∧ parseDict (rebuildDict [(b!"/S", b!"(a\\(b)")]) 2 0 = some (.ok [(b!"/S", b!"(a\\(b)\n")]) :=
  ⟨.byte _ _ (by decide) (.escape _ _ (by decide) (.byte _ _ (by decide) .nil)), by decide +kernel⟩

/-! ### What goes wrong -/

/-- A dictionary that is cut off behind a slash is never finished: however many rounds are allowed, the reader is still running. -/
theorem C168_cut_off_hangs_violated (fuel : Nat) : parseDict b!"<< /" fuel 0 = none := by
  have h : ∀ f p, p = 2 ∨ p = 3 ∨ p = 4 → dictLoop b!"<< /" f p = none := by
    intro f
    induction f with
    | zero => intro p _; rfl
    | succ f ih =>
      intro p hp
      have hs : skipComment b!"<< /" (skipWs b!"<< /" p) = 3 := by rcases hp with rfl | rfl | rfl <;> decide
      unfold dictLoop
      simp only
      rw [hs]
      have h1 : readName b!"<< /" 3 = some (b!"/", 4) := by decide
      have h2 : readValue b!"<< /" (skipWs b!"<< /" 4) = ([], 3) := by decide
      rw [if_neg (by decide), h1]
      simp only
      rw [h2]
      simp only
      rw [ih 3 (.inr (.inl rfl))]
      rfl
  show dictLoop b!"<< /" fuel 2 = none
  exact h fuel 2 (.inl rfl)

theorem skipWs_ge (d : Bytes) (p : Nat) : min p (d.length - 1) ≤ skipWs d p := by
  unfold skipWs
  simp only
  split <;> omega

theorem skipComment_ge (d : Bytes) (p : Nat) : p ≤ skipComment d p := by
  unfold skipComment
  split
  · rename_i r h
    have := congrArg List.length h
    simp only [List.length_drop, List.length_cons] at this
    omega
  · exact Nat.le_refl _

theorem readName_end (d : Bytes) (h : d.getLast? ≠ some 47) (p : Nat) (hp : d.length - 1 ≤ p) : readName d p = none := by
  have hl : (d.drop p).length ≤ 1 := by
    rw [List.length_drop]
    omega
  unfold readName
  split
  · rename_i r hr
    exfalso
    rw [hr] at hl
    have hr0 : r = [] := by
      cases r with
      | nil => rfl
      | cons _ _ => simp at hl
    subst hr0
    apply h
    conv_lhs => rw [← List.take_append_drop p d, hr]
    simp
  · rfl

theorem dictLoop_ends (d : Bytes) (h : d.getLast? ≠ some 47) : ∀ (fuel p : Nat), d.length - p < fuel → 0 < fuel → ∃ r, dictLoop d fuel p = some r := by
  intro fuel
  induction fuel with
  | zero => intro p _ h0; omega
  | succ f ih =>
    intro p hf _
    have hw := skipWs_ge d p
    have hc := skipComment_ge d (skipWs d p)
    unfold dictLoop
    simp only
    generalize skipComment d (skipWs d p) = p' at hc
    split
    · exact ⟨_, rfl⟩
    · cases hn : readName d p' with
      | none =>
        simp only
        split <;> exact ⟨_, rfl⟩
      | some kq =>
        obtain ⟨k, q⟩ := kq
        have hlt : p' < d.length - 1 := by
          apply Classical.byContradiction
          intro hge
          rw [readName_end d h p' (by omega)] at hn
          cases hn
        have hq : p' + 1 ≤ q := by
          unfold readName at hn
          split at hn
          · cases hn; omega
          · cases hn
        have hw2 := skipWs_ge d q
        have hv : skipWs d q ≤ (readValue d (skipWs d q)).2 := by
          unfold readValue
          simp
        simp only
        obtain ⟨r, hr⟩ := ih (readValue d (skipWs d q)).2 (by omega) (by omega)
        rw [hr]
        exact ⟨_, rfl⟩

/-- That is the only reason: every dictionary in data that do not end with a slash is read in at most as many rounds as there are bytes, and one
more. -/
theorem C168_ends (d : Bytes) (h : d.getLast? ≠ some 47) (p : Nat) : ∃ r, parseDict d (d.length + 1) p = some r := by
  unfold parseDict
  split
  · exact dictLoop_ends d h _ _ (by omega) (by omega)
  · exact ⟨_, rfl⟩

/-- Data that do not end with a slash, in which the dictionary is cut off. -/
example : (b!"<< /A" : Bytes).getLast? ≠ some 47 ∧ parseDict b!"<< /A" 6 0 = some .err := by decide +kernel

/-- A name is never the value of a key: the value is empty and the name is taken for the next key. -/
theorem C168_names_violated : parseDict b!"<< /Type /Catalog /Pages 2 0 R >>" 9 0 = some (.ok [(b!"/Type", b!""), (b!"/Catalog", b!""), (b!"/Pages", b!"2 0 R ")]) := by
  decide +kernel

/-- A hexadecimal string right before the end of the dictionary loses its closing bracket. -/
theorem C168_hex_violated : parseDict b!"<</ID <AB>>>" 9 0 = some (.ok [(b!"/ID", b!"<AB")]) := by
  decide +kernel

/-- A string that ends in an escaped backslash is not seen to end: the keys behind it are part of the value, and so is the end of the dictionary. -/
theorem C168_backslash_violated : parseDict b!"<</A (x\\) /B 2 >>" 9 0 = some .err := by
  decide +kernel

/-- The dictionary is not always given back: after a broken key everything up to the next `>>` is dropped without an error. -/
theorem C168_broken_key_violated : parseDict b!"<</A 1 2 /B 3 x>>" 9 0 = some (.ok [(b!"/A", b!"1 2 "), (b!"/B", b!"3 x")]) ∧
    parseDict b!"<<x /A 1 /B 2>>" 9 0 = some (.ok []) := by
  constructor <;> decide +kernel

/-! ### The object -/

/-- Without encryption an object is given back as it stands behind its header up to `endobj`. -/
theorem C168_plain (v : Int) (d : Bytes) (fuel : Nat) (n asked g : Int) (p : Nat) (h : (d.drop p).take 2 ≠ b!"<<") (hf : 0 < fuel) :
    readBody false v (fun _ _ c => some c) d fuel n asked g p =
      some (match index b!"endobj" (d.drop p) with
        | none => .err
        | some e => .ok (itoa n ++ b!" " ++ itoa asked ++ b!" obj\n" ++ (d.drop p).take e ++ b!"\nendobj")) := by
  unfold readBody
  rw [if_neg h]
  simp only
  cases index b!"endobj" (d.drop p) with
  | none => rfl
  | some e =>
    simp only
    have hp : parseDict ((d.drop p).take e) fuel 0 = some .err := by
      unfold parseDict
      rw [if_neg]
      intro h2
      apply h
      rw [List.drop_zero, List.take_take] at h2
      have := congrArg List.length h2
      simp only [List.length_take] at this
      have h3 : min 2 e = 2 := by
        simp at this
        omega
      rwa [h3] at h2
    rw [hp]
    split
    · rfl
    · rfl

/-- The header of an object at the start of the data leaves the position on the white space behind `obj`. -/
example : readHeader b!"1 0 obj\n<</A 1>>\nendobj" 0 = some (1, 0, 7) ∧ (b!"1 0 obj\n<</A 1>>\nendobj".drop 7).take 2 ≠ b!"<<" := by decide +kernel

/-- An object that decrypts to a dictionary is read as one: keys and values are those of the dictionary (partial as `C168_read_partial`). -/
theorem C168_encrypted_partial (v : Int) (dec : Int → Int → Bytes → Option Bytes) (d : Bytes) (fuel : Nat) (n asked g : Int) (p e : Nat)
    (w rest : Bytes) (es : List (Bytes × Bytes)) (h : (d.drop p).take 2 ≠ b!"<<") (hl : p < d.length) (he : index b!"endobj" (d.drop p) = some e)
    (hw : dec n g ((d.drop p).take (min 200 (d.length - p))) = some w) (hw2 : contains w b!"<<" = true)
    (hc : dec n g ((d.drop p).take e) = some (rebuildDict es ++ rest))
    (hk : ∀ e ∈ es, KeyName e.1) (hv : ∀ e ∈ es, ValueText e.2) (hf : es.length < fuel) :
    readBody true v dec d fuel n asked g p =
      some (.ok (itoa n ++ b!" " ++ itoa asked ++ b!" obj\n" ++ rebuildDict (es.map fun e => (e.1, e.2 ++ b!"\n")) ++ b!"\nendobj")) := by
  unfold readBody
  rw [if_neg h]
  simp only [he, hw, hw2, hl, decide_true, Bool.and_self, if_true, hc]
  have hr := C168_read_partial [] es hk hv rest fuel hf
  rw [List.nil_append, List.length_nil] at hr
  rw [hr]
  rfl

/-- A dictionary that is not encrypted as a whole, read from its first byte: every value is decrypted by itself, together with the newline behind
it; one that cannot be decrypted stays as it is. -/
theorem C168_values_partial (v : Int) (hv45 : v ≠ 4 ∧ v ≠ 5) (dec : Int → Int → Bytes → Option Bytes) (pre rest : Bytes) (fuel : Nat) (n asked g : Int)
    (es : List (Bytes × Bytes)) (hk : ∀ e ∈ es, KeyName e.1) (hv : ∀ e ∈ es, ValueText e.2) (hf : es.length < fuel) :
    readBody true v dec (pre ++ (rebuildDict es ++ rest)) fuel n asked g pre.length =
      some (.ok (itoa n ++ b!" " ++ itoa asked ++ b!" obj\n" ++
        rebuildDict (es.map fun e => (e.1, (dec n g (e.2 ++ b!"\n")).getD (e.2 ++ b!"\n"))) ++ b!"\nendobj")) := by
  unfold readBody
  rw [if_pos (by rw [List.drop_left' rfl]; rfl), C168_read_partial pre es hk hv rest fuel hf]
  have : decryptDict v (dec n g) (es.map fun e => (e.1, e.2 ++ b!"\n")) =
      es.map fun e => (e.1, (dec n g (e.2 ++ b!"\n")).getD (e.2 ++ b!"\n")) := by
    unfold decryptDict
    rw [List.map_map]
    congr 1
    funext e
    simp only [Function.comp]
    congr 1
    cases hd : dec n g (e.2 ++ b!"\n") with
    | some t => rfl
    | none =>
      simp only
      unfold XFA.decryptInChunks
      rw [if_neg (by simp), if_neg (by omega), hd]
  simp only [Option.map_some, Res.bind, if_true, this]
  rfl

/-- An object that decrypts to something else than a dictionary is given back decrypted. -/
theorem C168_other (v : Int) (dec : Int → Int → Bytes → Option Bytes) (d : Bytes) (fuel : Nat) (n asked g : Int) (p e : Nat) (t : Bytes)
    (h : (d.drop p).take 2 ≠ b!"<<") (he : index b!"endobj" (d.drop p) = some e) (hc : dec n g ((d.drop p).take e) = some t)
    (ht : t.take 2 ≠ b!"<<") :
    readBody true v dec d fuel n asked g p = some (.ok (itoa n ++ b!" " ++ itoa asked ++ b!" obj\n" ++ t ++ b!"\nendobj")) := by
  unfold readBody
  rw [if_neg h]
  simp only [he, hc]
  have hp : parseDict t fuel 0 = some .err := by
    unfold parseDict
    rw [if_neg (by rwa [List.drop_zero])]
  rw [hp]
  split
  · split
    · rfl
    · rfl
  · rfl

/-- A cipher whose key stream is 28, 1, 1, …. -/
def stream28 : Int → Int → Bytes → Option Bytes := fun _ _ c => match c with
  | [] => some []
  | x :: r => some ((x ^^^ 28) :: r.map (· ^^^ 1))

/-- An encrypted object whose decryption is cut off behind a slash. -/
def cutObject : Bytes := b!"1 0 obj =!.endobj"

/-- Reading it never comes to an end: the header is found, the object is decrypted, and the dictionary reader runs for ever. -/
theorem C168_hang_violated (rest : Int → Nat → Res Bytes) :
    readObject rest cutObject 1 0 0 = rest 0 7 ∧ ∀ fuel, readBody true 2 stream28 cutObject fuel 1 0 0 7 = none := by
  constructor
  · have h : readHeader cutObject 0 = some (1, 0, 7) := by decide +kernel
    have h0 : (seek { data := cutObject } 0 0).offset.toNat = 0 := by decide
    unfold readObject
    simp only
    rw [h0, h]
    simp
  · intro fuel
    have e1 : index b!"endobj" (cutObject.drop 7) = some 4 := by decide
    have e2 : stream28 1 0 ((cutObject.drop 7).take 4) = some b!"<< /" := by decide
    have e3 : ∃ w, stream28 1 0 ((cutObject.drop 7).take (min 200 (cutObject.length - 7))) = some w ∧ contains w b!"<<" = true :=
      ⟨b!"<< /doenck", by decide +kernel, by decide +kernel⟩
    obtain ⟨w, e3, e4⟩ := e3
    unfold readBody
    rw [if_neg (by decide)]
    simp only [e1, e2, e3, e4]
    rw [if_pos (by decide), C168_cut_off_hangs_violated]
    rfl

end Pdfer.Props
