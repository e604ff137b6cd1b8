import Verif.Model.XRefTable
import Verif.Proofs.Writer

namespace Pdfer.XRefTable

open Pdfer.Go Pdfer.Writer

theorem split_lines (L : List Bytes) (h : ∀ l ∈ L, (10 : UInt8) ∉ l) :
    split 10 (L.map (· ++ [10])).flatten = L ++ [[]] := by
  induction L with
  | nil => rfl
  | cons l ls ih =>
    rw [List.map_cons, List.flatten_cons, List.append_assoc, List.singleton_append,
      split_cons 10 l _ (h l (by simp)), ih (fun x hx => h x (by simp [hx]))]
    rfl

theorem digits_no_space {w : Bytes} (h : ∀ c ∈ w, isDigit c = true) : ∀ c ∈ w, isSpace c = false :=
  fun c hc => isDigit_not_space (h c hc)

theorem digits_no_nl {w : Bytes} (h : ∀ c ∈ w, isDigit c = true) : (10 : UInt8) ∉ w := by
  intro hm
  have := h 10 hm
  revert this; decide

/-- A table line without its newline. -/
def lineBody (ps : Map Int Nat) (i : Nat) : Bytes :=
  match ps.get (i : Int) with
  | some pos => padDec 10 pos ++ b!" " ++ padDec 5 0 ++ b!" n "
  | none => padDec 10 0 ++ b!" " ++ padDec 5 1 ++ b!" f "

theorem tableLine_eq (ps : Map Int Nat) (i : Nat) : tableLine ps i = lineBody ps i ++ [10] := by
  unfold tableLine lineBody
  cases ps.get (i : Int) <;> simp

theorem entry_fields (a b : Nat) (k l : Nat) (f : UInt8) (hf : isSpace f = false) :
    fields (padDec k a ++ b!" " ++ padDec l b ++ [32, f, 32]) = [padDec k a, padDec l b, [f]] := by
  have h1 := digits_no_space (padDec_digits k a)
  have h2 := digits_no_space (padDec_digits l b)
  rw [show padDec k a ++ b!" " ++ padDec l b ++ [32, f, 32] = padDec k a ++ 32 :: (padDec l b ++ 32 :: ([f] ++ 32 :: [])) by
    simp]
  rw [fields_word_space _ h1 (padDec_ne_nil k a) 32 (by decide),
    fields_word_space _ h2 (padDec_ne_nil l b) 32 (by decide),
    fields_word_space _ (by simpa using hf) (by simp) 32 (by decide), fields_nil]

theorem lineBody_no_nl (ps : Map Int Nat) (i : Nat) : (10 : UInt8) ∉ lineBody ps i := by
  unfold lineBody
  split <;> simp [digits_no_nl (padDec_digits _ _)]

theorem step_entry (st : St) (hs : st.inSub = true) (a b k l : Nat) (f : UInt8)
    (ha : a ≤ 9223372036854775807) (hb : b ≤ 9223372036854775807) :
    tableStep st [padDec k a, padDec l b, [f]] =
      { st with cur := st.cur + 1, objs := if f = 110 then st.objs.set st.cur (Int.ofNat a) else st.objs } := by
  unfold tableStep
  simp only [List.length_cons, List.length_nil, hs, List.getD_cons_zero, List.getD_cons_succ, atoi_padDec _ _ ha,
    atoi_padDec _ _ hb]
  simp

theorem step_line (st : St) (hs : st.inSub = true) (ps : Map Int Nat) (hps : ∀ e ∈ ps, e.2 ≤ 9223372036854775807)
    (i : Nat) :
    tableStep st (fields (lineBody ps i)) =
      { st with cur := st.cur + 1,
                objs := match ps.get (i : Int) with
                  | some p => st.objs.set st.cur (p : Int)
                  | none => st.objs } := by
  unfold lineBody
  cases hg : ps.get (i : Int) with
  | none =>
    simp only
    rw [entry_fields 0 1 10 5 102 (by decide), step_entry st hs 0 1 10 5 102 (by decide) (by decide)]
    simp
  | some p =>
    simp only
    have hp : p ≤ 9223372036854775807 := by
      unfold Map.get at hg
      cases hf : List.find? (fun e => decide (e.1 = (i : Int))) ps with
      | none => rw [hf] at hg; simp at hg
      | some e => rw [hf] at hg; simp at hg; rw [← hg]; exact hps e (List.mem_of_find?_eq_some hf)
    rw [entry_fields p 0 10 5 110 (by decide), step_entry st hs p 0 10 5 110 hp (by decide)]
    simp

/-- The objects read from the entries `i, i+1, ..., i+k-1`. -/
theorem entries_loop (ps : Map Int Nat) (hps : ∀ e ∈ ps, e.2 ≤ 9223372036854775807) (k i : Nat) (st : St)
    (hs : st.inSub = true) (hc : st.cur = (i : Int)) :
    ∃ st', (((List.range' i k).map (lineBody ps)).foldl (fun st l => tableStep st (fields l)) st) = st' ∧
      st'.inSub = true ∧ st'.cur = ((i + k : Nat) : Int) ∧
      ∀ n : Int, st'.objs.get n =
        if (i : Int) ≤ n ∧ n < ((i + k : Nat) : Int) then
          (match ps.get n with | some p => some (p : Int) | none => st.objs.get n) else st.objs.get n := by
  induction k generalizing i st with
  | zero =>
    refine ⟨st, rfl, hs, by simpa using hc, ?_⟩
    intro n
    rw [if_neg]; omega
  | succ k ih =>
    rw [List.range'_succ, List.map_cons, List.foldl_cons, step_line st hs ps hps i]
    obtain ⟨st', h1, h2, h3, h4⟩ := ih (i + 1) _
      (show ({ st with cur := st.cur + 1, objs := match ps.get (i : Int) with
                  | some p => st.objs.set st.cur (p : Int)
                  | none => st.objs } : St).inSub = true from hs)
      (by simp only [hc]; omega)
    refine ⟨st', h1, h2, by rw [h3]; congr 1; omega, ?_⟩
    intro n
    rw [h4 n]
    have hset : ∀ m, (match ps.get (i : Int) with | some p => st.objs.set st.cur (p : Int) | none => st.objs).get m =
        if m = (i : Int) then (match ps.get m with | some p => some (p : Int) | none => st.objs.get m)
        else st.objs.get m := by
      intro m
      cases hg : ps.get (i : Int) with
      | none =>
        simp only
        split
        · subst_vars; simp [hg]
        · rfl
      | some p =>
        simp only [hc, Map.get_set]
        split
        · subst_vars; simp [hg]
        · rfl
    simp only [hset]
    by_cases hn : n = (i : Int)
    · rw [if_neg (by omega), if_pos hn, if_pos (by omega)]
    · by_cases hr : ((i + 1 : Nat) : Int) ≤ n ∧ n < ((i + 1 + k : Nat) : Int)
      · rw [if_pos hr, if_neg hn, if_pos (by omega)]
      · rw [if_neg hr, if_neg hn, if_neg (by omega)]

theorem atoi_slash (w : Bytes) : atoi (47 :: w) = none := by
  have : (47 :: w : Bytes).all isDigit = false := by simp [isDigit]
  unfold atoi
  split
  · rename_i h; simp at h
  · rename_i h; simp at h
  · unfold atoiMag; simp [this]

/-- A line whose first field starts with '/' leaves the objects alone. -/
theorem step_slash (st : St) (fs : List Bytes) (w : Bytes) (h : fs.getD 0 [] = 47 :: w) :
    (tableStep st fs).objs = st.objs := by
  unfold tableStep
  simp only [h, atoi_slash]
  have : (if fs.length = 2 then (none : Option Int) else none) = none := by split <;> rfl
  simp only [this]
  split <;> rfl

/-- A line with a single field does nothing. -/
theorem step_one (st : St) (w : Bytes) : tableStep st [w] = st := by
  unfold tableStep; simp

theorem step_zero (st : St) : tableStep st [] = st := by
  unfold tableStep; simp

/-- Lines that leave the objects alone. -/
def Inert (l : Bytes) : Prop := ∀ st, (tableStep st (fields l)).objs = st.objs

theorem inert_loop (L : List Bytes) (h : ∀ l ∈ L, Inert l) (st : St) :
    (L.foldl (fun st l => tableStep st (fields l)) st).objs = st.objs := by
  induction L generalizing st with
  | nil => rfl
  | cons l ls ih => rw [List.foldl_cons, ih (fun x hx => h x (by simp [hx])), h l (by simp)]

theorem fields_first (w : Bytes) (hw : ∀ c ∈ w, isSpace c = false) (h0 : w ≠ []) (rest : Bytes) :
    (fields (w ++ rest)).getD 0 [] = w ++ rest.takeWhile (fun c => !isSpace c) := by
  unfold fields
  rw [fieldsAux_word [] w hw]
  suffices H : ∀ (acc rest : Bytes), acc ≠ [] →
      (fieldsAux acc rest).getD 0 [] = acc.reverse ++ rest.takeWhile (fun c => !isSpace c) by
    have := H (w.reverse ++ []) rest (by simpa using h0)
    simpa using this
  intro acc rest hacc
  induction rest generalizing acc with
  | nil => simp [fieldsAux, hacc]
  | cons c cs ih =>
    by_cases hc : isSpace c = true
    · simp [fieldsAux, hc, hacc]
    · simp only [Bool.not_eq_true] at hc
      rw [fieldsAux, if_neg (by simp [hc]), ih _ (by simp)]
      simp [hc]

theorem inert_slash (rest : Bytes) : Inert (47 :: rest) := by
  intro st
  have := fields_first [47] (by decide) (by simp) rest
  exact step_slash st _ _ this

theorem inert_word (w : Bytes) (hw : ∀ c ∈ w, isSpace c = false) : Inert w := by
  intro st
  by_cases h : w = []
  · subst h; rw [fields_nil, step_zero]
  · rw [fields_word w hw h, step_one]

/-! ### The written tail, line by line -/

def nl (L : List Bytes) : Bytes := (L.map (· ++ [10])).flatten

theorem nl_append (a b : List Bytes) : nl (a ++ b) = nl a ++ nl b := by simp [nl]

def trailerLines (w : Writer) : List Bytes :=
  [b!"trailer", b!"<<", b!"/Size " ++ itoa w.nextObjNum] ++
  (if w.rootRef ≠ [] then [b!"/Root " ++ w.rootRef] else []) ++
  (if w.infoRef ≠ [] then [b!"/Info " ++ w.infoRef] else []) ++
  (if w.encryptRef ≠ [] then [b!"/Encrypt " ++ w.encryptRef] else []) ++
  (if w.fileID.length > 0 then [b!"/ID [<" ++ hexUpper w.fileID ++ b!"><" ++ hexUpper w.fileID ++ b!">]"]
   else []) ++
  [b!">>"]

theorem trailer_nl (w : Writer) : trailer w = nl (trailerLines w) := by
  unfold trailer trailerLines
  simp only [nl_append]
  split <;> split <;> split <;> split <;> simp [nl]

theorem startxref_nl (p : Nat) : startxref p = nl [b!"startxref", natDec p, b!"%%EOF"] := by
  simp [startxref, nl]

theorem xrefTable_nl (next : Int) (ps : Map Int Nat) :
    xrefTable next ps = nl ([b!"xref", b!"0 " ++ itoa next, padDec 10 0 ++ b!" " ++ padDec 5 65535 ++ [32, 102, 32]] ++
      (List.range' 1 (next.toNat - 1)).map (lineBody ps)) := by
  unfold xrefTable
  rw [nl_append]
  have : ((List.range (next.toNat - 1)).map (fun k => tableLine ps (k + 1))).flatten =
      nl ((List.range' 1 (next.toNat - 1)).map (lineBody ps)) := by
    unfold nl
    congr 1
    rw [List.map_map, List.range'_eq_map_range, List.map_map]
    apply List.map_congr_left
    intro k _
    simp [tableLine_eq, Nat.add_comm]
  rw [this]
  simp [nl]

theorem itoa_no_nl (n : Int) : (10 : UInt8) ∉ itoa n := by
  cases n with
  | ofNat n => exact digits_no_nl (natDec_digits n)
  | negSucc n => simp [itoa, digits_no_nl (natDec_digits _)]

theorem itoa_no_space (n : Int) : ∀ c ∈ itoa n, isSpace c = false := by
  cases n with
  | ofNat n => exact digits_no_space (natDec_digits n)
  | negSucc n =>
    intro c hc
    rcases List.mem_cons.1 hc with rfl | hc
    · decide
    · exact digits_no_space (natDec_digits _) c hc

theorem hexUpper_no_nl (bs : Bytes) : (10 : UInt8) ∉ hexUpper bs := by
  unfold hexUpper
  intro h
  obtain ⟨b, _, hb⟩ := List.mem_flatMap.1 h
  have key : ∀ n, n < 16 → (10 : UInt8) ≠ hexUp n := by decide
  simp only [List.mem_cons, List.not_mem_nil, or_false] at hb
  have hlt := b.toNat_lt
  rcases hb with hb | hb
  · exact key _ (by omega) hb
  · exact key _ (by omega) hb

/-- The references in the trailer contain no newline. -/
structure RefsOK (w : Writer) : Prop where
  root : (10 : UInt8) ∉ w.rootRef
  info : (10 : UInt8) ∉ w.infoRef
  encrypt : (10 : UInt8) ∉ w.encryptRef

theorem ref_no_nl (n : Int) : (10 : UInt8) ∉ ref n := by simp [ref, itoa_no_nl]

theorem write_refs (env : Env) (w : Writer) : (write env w).2.rootRef = w.rootRef ∧
    (write env w).2.infoRef = w.infoRef ∧ (write env w).2.encryptRef = w.encryptRef := by
  have hc : (createObjectStreams env w).1.rootRef = w.rootRef ∧ (createObjectStreams env w).1.infoRef = w.infoRef ∧
      (createObjectStreams env w).1.encryptRef = w.encryptRef := by
    unfold createObjectStreams
    split
    · simp
    · simp only; split <;> simp
  unfold write
  simp only
  split <;> exact hc

theorem refs_run (env : Env) (ops : List Op) : RefsOK (run env ops) := by
  induction ops using snoc_induction with
  | nil => exact ⟨by simp [run, newWriter], by simp [run, newWriter], by simp [run, newWriter]⟩
  | snoc ops op ih =>
    rw [run_append]
    cases op with
    | setRoot n => exact ⟨ref_no_nl n, ih.info, ih.encrypt⟩
    | setInfo n => exact ⟨ih.root, ref_no_nl n, ih.encrypt⟩
    | setEncryptRef n => exact ⟨ih.root, ih.info, ref_no_nl n⟩
    | write =>
      obtain ⟨h1, h2, h3⟩ := write_refs env (run env ops)
      exact ⟨by rw [show (step env (run env ops) .write).1 = (write env (run env ops)).2 from rfl, h1]; exact ih.root,
        by rw [show (step env (run env ops) .write).1 = (write env (run env ops)).2 from rfl, h2]; exact ih.info,
        by rw [show (step env (run env ops) .write).1 = (write env (run env ops)).2 from rfl, h3]; exact ih.encrypt⟩
    | _ => exact ⟨ih.root, ih.info, ih.encrypt⟩

theorem trailerLines_no_nl (w : Writer) (h : RefsOK w) : ∀ l ∈ trailerLines w, (10 : UInt8) ∉ l := by
  intro l hl
  unfold trailerLines at hl
  simp only [List.mem_append] at hl
  rcases hl with ((((hl | hl) | hl) | hl) | hl) | hl
  · simp only [List.mem_cons, List.not_mem_nil, or_false] at hl
    rcases hl with rfl | rfl | rfl
    · decide
    · decide
    · simp [itoa_no_nl]
  · split at hl
    · simp at hl; subst hl; simp [h.root]
    · simp at hl
  · split at hl
    · simp at hl; subst hl; simp [h.info]
    · simp at hl
  · split at hl
    · simp at hl; subst hl; simp [h.encrypt]
    · simp at hl
  · split at hl
    · simp at hl; subst hl; simp [hexUpper_no_nl]
    · simp at hl
  · simp at hl; subst hl; decide

theorem trailerLines_inert (w : Writer) : ∀ l ∈ trailerLines w, Inert l := by
  intro l hl
  unfold trailerLines at hl
  simp only [List.mem_append] at hl
  rcases hl with ((((hl | hl) | hl) | hl) | hl) | hl
  · simp only [List.mem_cons, List.not_mem_nil, or_false] at hl
    rcases hl with rfl | rfl | rfl
    · exact inert_word _ (by decide)
    · exact inert_word _ (by decide)
    · exact inert_slash _
  · split at hl
    · simp at hl; subst hl; exact inert_slash _
    · simp at hl
  · split at hl
    · simp at hl; subst hl; exact inert_slash _
    · simp at hl
  · split at hl
    · simp at hl; subst hl; exact inert_slash _
    · simp at hl
  · split at hl
    · simp at hl; subst hl; exact inert_slash _
    · simp at hl
  · simp at hl; subst hl; exact inert_word _ (by decide)

/-- The part of the written file from the xref keyword on. -/
def tail (w : Writer) (ps : Map Int Nat) (pos : Nat) : Bytes :=
  xrefTable w.nextObjNum ps ++ trailer w ++ startxref pos

def tableLines (next : Int) (ps : Map Int Nat) : List Bytes :=
  (padDec 10 0 ++ b!" " ++ padDec 5 65535 ++ [32, 102, 32]) :: (List.range' 1 (next.toNat - 1)).map (lineBody ps)

def endLines (w : Writer) (pos : Nat) : List Bytes :=
  trailerLines w ++ [b!"startxref", natDec pos, b!"%%EOF"]

theorem tail_nl (w : Writer) (ps : Map Int Nat) (pos : Nat) :
    tail w ps pos = nl (b!"xref" :: (b!"0 " ++ itoa w.nextObjNum) ::
      (tableLines w.nextObjNum ps ++ endLines w pos)) := by
  unfold tail tableLines endLines
  rw [xrefTable_nl, trailer_nl, startxref_nl, ← nl_append, ← nl_append]
  simp

theorem tableLines_no_nl (next : Int) (ps : Map Int Nat) : ∀ l ∈ tableLines next ps, (10 : UInt8) ∉ l := by
  intro l hl
  unfold tableLines at hl
  rcases List.mem_cons.1 hl with rfl | hl
  · simp [digits_no_nl (padDec_digits _ _)]
  · obtain ⟨i, _, rfl⟩ := List.mem_map.1 hl
    exact lineBody_no_nl ps i

theorem endLines_no_nl (w : Writer) (h : RefsOK w) (pos : Nat) : ∀ l ∈ endLines w pos, (10 : UInt8) ∉ l := by
  intro l hl
  unfold endLines at hl
  rcases List.mem_append.1 hl with hl | hl
  · exact trailerLines_no_nl w h l hl
  · simp only [List.mem_cons, List.not_mem_nil, or_false] at hl
    rcases hl with rfl | rfl | rfl
    · decide
    · exact digits_no_nl (natDec_digits pos)
    · decide

theorem endLines_inert (w : Writer) (pos : Nat) : ∀ l ∈ endLines w pos, Inert l := by
  intro l hl
  unfold endLines at hl
  rcases List.mem_append.1 hl with hl | hl
  · exact trailerLines_inert w l hl
  · simp only [List.mem_cons, List.not_mem_nil, or_false] at hl
    rcases hl with rfl | rfl | rfl
    · exact inert_word _ (by decide)
    · exact inert_word _ (digits_no_space (natDec_digits pos))
    · exact inert_word _ (by decide)

theorem split_tail (w : Writer) (h : RefsOK w) (ps : Map Int Nat) (pos : Nat) :
    split 10 (tail w ps pos) = b!"xref" :: (b!"0 " ++ itoa w.nextObjNum) ::
      (tableLines w.nextObjNum ps ++ endLines w pos) ++ [[]] := by
  rw [tail_nl]
  unfold nl
  apply split_lines
  intro l hl
  rcases List.mem_cons.1 hl with rfl | hl
  · decide
  · rcases List.mem_cons.1 hl with rfl | hl
    · simp [itoa_no_nl]
    · rcases List.mem_append.1 hl with hl | hl
      · exact tableLines_no_nl _ _ l hl
      · exact endLines_no_nl w h pos l hl

theorem step_header (st : St) (next : Int) (h0 : 0 ≤ next) (h1 : next ≤ 9223372036854775807) :
    tableStep st (fields (b!"0 " ++ itoa next)) = { st with cur := 0, inSub := true } := by
  have hne : itoa next ≠ [] := by
    cases next with
    | ofNat n => exact natDec_ne_nil n
    | negSucc n => simp [itoa]
  have hf : fields (b!"0 " ++ itoa next) = [b!"0", itoa next] := by
    rw [show b!"0 " ++ itoa next = b!"0" ++ 32 :: itoa next from rfl,
      fields_word_space _ (by decide) (by decide) 32 (by decide), fields_word _ (itoa_no_space next) hne]
  obtain ⟨n, rfl⟩ := Int.eq_ofNat_of_zero_le h0
  have ha : atoi (itoa (n : Int)) = some (n : Int) := atoi_natDec n (by omega)
  rw [hf]
  unfold tableStep
  simp only [List.length_cons, List.length_nil, List.getD_cons_zero, List.getD_cons_succ, ha]
  rfl

/-- Reading the table lines after the header gives exactly the written positions. -/
theorem tableLines_read (next : Int) (h0 : 1 ≤ next) (h1 : next ≤ 9223372036854775807) (ps : Map Int Nat)
    (hps : ∀ e ∈ ps, e.2 ≤ 9223372036854775807) (st : St) (hst : st.objs = []) :
    ∀ n : Int, (((b!"0 " ++ itoa next) :: tableLines next ps).foldl (fun st l => tableStep st (fields l)) st).objs.get n =
      if 1 ≤ n ∧ n < next then (ps.get n).map Int.ofNat else none := by
  intro n
  rw [List.foldl_cons, step_header st next (by omega) h1]
  unfold tableLines
  rw [List.foldl_cons, entry_fields 0 65535 10 5 102 (by decide), step_entry _ rfl 0 65535 10 5 102 (by decide) (by decide)]
  obtain ⟨st', e1, _, _, e4⟩ := entries_loop ps hps (next.toNat - 1) 1
    ({ cur := 0 + 1, inSub := true, objs := if (102 : UInt8) = 110 then st.objs.set 0 (Int.ofNat 0) else st.objs } : St)
    rfl rfl
  simp only
  rw [e1, e4 n]
  have hx : ((1 + (next.toNat - 1) : Nat) : Int) = next := by omega
  rw [hx]
  have hnone : (if (102 : UInt8) = 110 then st.objs.set 0 (Int.ofNat 0) else st.objs).get n = none := by
    rw [if_neg (by decide), hst]; rfl
  rw [hnone]
  by_cases hn : 1 ≤ n ∧ n < next
  · rw [if_pos hn, if_pos (show ((1 : Nat) : Int) ≤ n ∧ n < next from hn)]
    cases ps.get n <;> rfl
  · rw [if_neg hn, if_neg (show ¬ (((1 : Nat) : Int) ≤ n ∧ n < next) from hn)]

/-- `ParseTraditionalXRefTable` on a written tail that fits the window. -/
theorem parseTable_tail (pre : Bytes) (w : Writer) (h : RefsOK w) (ps : Map Int Nat) (pos : Nat)
    (h0 : 1 ≤ w.nextObjNum) (h1 : w.nextObjNum ≤ 9223372036854775807)
    (hps : ∀ e ∈ ps, e.2 ≤ 9223372036854775807) (hwin : (tail w ps pos).length ≤ window) :
    ∃ m, parseTable (pre ++ tail w ps pos) pre.length = some m ∧
      ∀ n : Int, m.get n = if 1 ≤ n ∧ n < w.nextObjNum then (ps.get n).map Int.ofNat else none := by
  have hd : (pre ++ tail w ps pos).drop pre.length = tail w ps pos := by simp
  have hi : index b!"xref" (tail w ps pos) = some 0 := by
    rw [tail_nl]
    simp [nl, index, List.isPrefixOf]
  unfold parseTable
  simp only [hd, List.take_of_length_le hwin, hi, List.drop_zero]
  rw [split_tail w h]
  refine ⟨_, rfl, ?_⟩
  intro n
  simp only [List.cons_append, List.drop_succ_cons, List.drop_zero]
  rw [← List.cons_append, ← List.cons_append, List.foldl_append, List.foldl_append]
  rw [inert_loop [[]] (by intro l hl; simp at hl; subst hl; exact inert_word [] (by simp)),
    inert_loop _ (endLines_inert w pos)]
  exact tableLines_read w.nextObjNum h0 h1 ps hps st0 rfl n

/-- The reader finds at most one object per line of the window. -/
theorem fold_length (L : List Bytes) (st : St) :
    (L.foldl (fun st l => tableStep st (fields l)) st).objs.length ≤ st.objs.length + L.length := by
  induction L generalizing st with
  | nil => simp
  | cons l ls ih =>
    rw [List.foldl_cons]
    have h1 := ih (tableStep st (fields l))
    have h2 : (tableStep st (fields l)).objs.length ≤ st.objs.length + 1 := by
      have hset : ∀ v, (st.objs.set st.cur v).length ≤ st.objs.length + 1 := by
        intro v
        unfold Map.set
        have := List.length_filter_le (fun e => decide (e.1 ≠ st.cur)) st.objs
        simp only [List.length_cons]; omega
      unfold tableStep
      simp only
      repeat' split
      all_goals first | exact hset _ | exact Nat.le_succ _
    simp only [List.length_cons]
    omega

theorem parseTable_bounded (pdf : Bytes) (start : Nat) (m : Map Int Int) (h : parseTable pdf start = some m) :
    m.length ≤ window := by
  unfold parseTable at h
  simp only at h
  split at h
  · simp at h
  · rename_i p hp
    simp at h
    subst h
    refine Nat.le_trans (fold_length _ _) ?_
    have h1 := split_length 10 (((pdf.drop start).take window).drop p)
    have h2 : (((pdf.drop start).take window).drop p).length ≤ window := by simp; omega
    simp [st0] at h1 ⊢
    omega

/-! ### The incremental reader -/

theorem dropWhile_snoc (p : UInt8 → Bool) (xs : Bytes) (c : UInt8) (h : p c = false) :
    (xs ++ [c]).dropWhile p = xs.dropWhile p ++ [c] := by
  induction xs with
  | nil => simp [h]
  | cons x xs ih =>
    by_cases hx : p x = true
    · simp [hx, ih]
    · simp [hx]

theorem trimSpace_cons (c : UInt8) (r : Bytes) (h : isSpace c = false) : ∃ r', trimSpace (c :: r) = c :: r' := by
  unfold trimSpace
  rw [List.dropWhile_cons, if_neg (by simp [h]), List.reverse_cons, dropWhile_snoc _ _ _ h]
  exact ⟨(r.reverse.dropWhile isSpace).reverse, by simp⟩

/-- Lines that do not look like the trailer keyword. -/
def Plain (l : Bytes) : Prop := ∃ c r, l = c :: r ∧ isSpace c = false ∧ c ≠ 116

theorem section_append (L rest : List Bytes) (hL : ∀ l ∈ L, Plain l) (st : St) :
    sectionLoop st (L ++ b!"trailer" :: rest) = L.foldl (fun st l => tableStep st (fields l)) st := by
  induction L generalizing st with
  | nil => rfl
  | cons l ls ih =>
    obtain ⟨c, r, rfl, h1, h2⟩ := hL l (by simp)
    obtain ⟨r', hr⟩ := trimSpace_cons c r h1
    rw [List.cons_append, sectionLoop]
    simp only [hr]
    rw [if_neg (by simp), if_neg, ih (fun x hx => hL x (by simp [hx])), List.foldl_cons]
    simp [List.isPrefixOf]
    intro h; exact absurd h.symm h2

theorem padDec_head (k n : Nat) : ∃ c r, padDec k n = c :: r ∧ isDigit c = true := by
  cases h : padDec k n with
  | nil => exact absurd h (padDec_ne_nil k n)
  | cons c r => exact ⟨c, r, rfl, padDec_digits k n c (by rw [h]; simp)⟩

theorem plain_padDec (k n : Nat) (rest : Bytes) : Plain (padDec k n ++ rest) := by
  obtain ⟨c, r, h, hd⟩ := padDec_head k n
  refine ⟨c, r ++ rest, by rw [h]; rfl, isDigit_not_space hd, ?_⟩
  rintro rfl
  revert hd; decide

theorem tableLines_plain (next : Int) (ps : Map Int Nat) :
    ∀ l ∈ (b!"0 " ++ itoa next) :: tableLines next ps, Plain l := by
  intro l hl
  rcases List.mem_cons.1 hl with rfl | hl
  · exact ⟨48, 32 :: itoa next, rfl, by decide, by decide⟩
  · unfold tableLines at hl
    rcases List.mem_cons.1 hl with rfl | hl
    · rw [List.append_assoc, List.append_assoc]; exact plain_padDec _ _ _
    · obtain ⟨i, _, rfl⟩ := List.mem_map.1 hl
      unfold lineBody
      split <;> (rw [List.append_assoc, List.append_assoc]; exact plain_padDec _ _ _)

theorem parseSection_tail (pre : Bytes) (w : Writer) (h : RefsOK w) (ps : Map Int Nat) (pos : Nat)
    (h0 : 1 ≤ w.nextObjNum) (h1 : w.nextObjNum ≤ 9223372036854775807)
    (hps : ∀ e ∈ ps, e.2 ≤ 9223372036854775807) (hwin : (tail w ps pos).length ≤ window) :
    ∀ n : Int, (parseSection (pre ++ tail w ps pos) pre.length).get n =
      if 1 ≤ n ∧ n < w.nextObjNum then (ps.get n).map Int.ofNat else none := by
  intro n
  have hd : (pre ++ tail w ps pos).drop pre.length = tail w ps pos := by simp
  unfold parseSection
  simp only [hd, List.take_of_length_le hwin]
  rw [split_tail w h]
  simp only [List.cons_append]
  rw [if_pos (by decide)]
  have he : endLines w pos = b!"trailer" :: (endLines w pos).tail := by
    unfold endLines trailerLines; rfl
  rw [he]
  have hs := section_append _ ((endLines w pos).tail ++ [[]]) (tableLines_plain w.nextObjNum ps) st0
  simp only [List.cons_append, List.append_assoc, List.nil_append] at hs ⊢
  rw [hs]
  exact tableLines_read w.nextObjNum h0 h1 ps hps st0 rfl n

end Pdfer.XRefTable
