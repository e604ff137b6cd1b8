import Verif.Model.XRefStream
import Verif.Proofs.XRefTable

/-! Lemmas for cross-reference streams and object streams. -/

namespace Pdfer.XRefStream

open Pdfer.Go Pdfer.Writer

/-! ### Big-endian fields -/

theorem fieldVal_snoc (bs : Bytes) (b : UInt8) : fieldVal (bs ++ [b]) = 256 * fieldVal bs + b.toNat := by
  simp [fieldVal, List.foldl_append]

theorem fieldVal_bigEndian (w v : Nat) (h : v < 256 ^ w) : fieldVal (bigEndian w v) = v := by
  induction w generalizing v with
  | zero => simp at h; subst h; rfl
  | succ w ih =>
    simp only [bigEndian]
    rw [fieldVal_snoc, ih _ (by rw [Nat.pow_succ] at h; omega)]
    simp; omega

theorem bigEndian_length (w v : Nat) : (bigEndian w v).length = w := by
  induction w generalizing v with
  | zero => rfl
  | succ w ih => simp [bigEndian, ih]

theorem fieldVal_zeros (w : Nat) : fieldVal (List.replicate w 0) = 0 := by
  induction w with
  | zero => rfl
  | succ w ih => rw [List.replicate_succ', fieldVal_snoc, ih]; rfl

theorem bytesNeededAux_spec (f n : Nat) (h : n ≤ f) : n < 256 ^ bytesNeededAux f n := by
  induction f generalizing n with
  | zero => simp at h; subst h; simp [bytesNeededAux]
  | succ f ih =>
    simp only [bytesNeededAux]
    split
    · have := ih (n / 256) (by omega)
      rw [Nat.pow_add, Nat.pow_one]; omega
    · simp; omega

theorem bytesNeeded_spec (n : Nat) : n < 256 ^ bytesNeeded n := by
  unfold bytesNeeded
  split
  · subst_vars; decide
  · exact bytesNeededAux_spec n n (Nat.le_refl _)

theorem bytesNeededAux_le (f n k : Nat) (h : n < 256 ^ k) : bytesNeededAux f n ≤ k := by
  induction f generalizing n k with
  | zero => simp [bytesNeededAux]
  | succ f ih =>
    simp only [bytesNeededAux]
    split
    · cases k with
      | zero => simp at h; omega
      | succ k => have := ih (n / 256) k (by rw [Nat.pow_succ] at h; omega); omega
    · omega

theorem bytesNeeded_le (n k : Nat) (hk : 1 ≤ k) (h : n < 256 ^ k) : bytesNeeded n ≤ k := by
  unfold bytesNeeded
  split
  · exact hk
  · exact bytesNeededAux_le n n k h

theorem foldl_max_ge (l : List Nat) (a : Nat) : a ≤ l.foldl max a ∧ ∀ x ∈ l, x ≤ l.foldl max a := by
  induction l generalizing a with
  | nil => simp
  | cons b l ih =>
    simp only [List.foldl_cons]
    obtain ⟨h1, h2⟩ := ih (max a b)
    refine ⟨by omega, ?_⟩
    intro x hx
    rcases List.mem_cons.1 hx with rfl | hx
    · omega
    · exact h2 x hx

theorem le_maxOf (l : List Nat) (x : Nat) (h : x ∈ l) : x ≤ maxOf l := (foldl_max_ge l 0).2 x h

theorem foldl_max_lt (l : List Nat) (a b : Nat) (ha : a < b) (h : ∀ x ∈ l, x < b) : l.foldl max a < b := by
  induction l generalizing a with
  | nil => exact ha
  | cons c l ih =>
    simp only [List.foldl_cons]
    exact ih _ (by have := h c (by simp); omega) (fun x hx => h x (by simp [hx]))

theorem maxOf_lt (l : List Nat) (b : Nat) (hb : 0 < b) (h : ∀ x ∈ l, x < b) : maxOf l < b :=
  foldl_max_lt l 0 b hb h

/-- The chosen widths are wide enough for every number stored. -/
theorem widths_ok (bufLen : Nat) (ps : Map Int Nat) (stm : Map Int StmRef) :
    (∀ e ∈ ps, e.2 < 256 ^ (xrefWidths bufLen ps stm).1) ∧
    bufLen < 256 ^ (xrefWidths bufLen ps stm).1 ∧
    (∀ e ∈ stm, e.2.streamObjNum.toNat < 256 ^ (xrefWidths bufLen ps stm).1) ∧
    (∀ e ∈ stm, e.2.index < 256 ^ (xrefWidths bufLen ps stm).2) ∧
    1 ≤ (xrefWidths bufLen ps stm).2 := by
  have hm1 : ∀ e ∈ ps, e.2 ≤ maxOf (ps.map (·.2)) := fun e he => le_maxOf _ _ (List.mem_map.2 ⟨e, he, rfl⟩)
  have hm2 : ∀ e ∈ stm, e.2.streamObjNum.toNat ≤ maxOf (stm.map (fun e => e.2.streamObjNum.toNat)) :=
    fun e he => le_maxOf _ _ (List.mem_map.2 ⟨e, he, rfl⟩)
  have hm3 : ∀ e ∈ stm, e.2.index ≤ maxOf (stm.map (fun e => e.2.index)) :=
    fun e he => le_maxOf _ _ (List.mem_map.2 ⟨e, he, rfl⟩)
  have hw2 : maxOf (stm.map (fun e => e.2.streamObjNum.toNat)) < 256 ^ (xrefWidths bufLen ps stm).1 ∧
      max (maxOf (ps.map (·.2))) (bufLen + 200) < 256 ^ (xrefWidths bufLen ps stm).1 := by
    unfold xrefWidths
    simp only
    split
    · have := bytesNeeded_spec (maxOf (stm.map (fun e => e.2.streamObjNum.toNat)))
      omega
    · have := bytesNeeded_spec (max (maxOf (ps.map (·.2))) (bufLen + 200))
      omega
  have hw3 : maxOf (stm.map (fun e => e.2.index)) < 256 ^ (xrefWidths bufLen ps stm).2 := by
    unfold xrefWidths
    simp only
    have := bytesNeeded_spec (maxOf (stm.map (fun e => e.2.index)))
    split
    · rename_i h
      have h0 : bytesNeeded (maxOf (stm.map (fun e => e.2.index))) = 0 := by omega
      rw [h0] at this
      simp at this
      omega
    · exact this
  refine ⟨fun e he => ?_, by omega, fun e he => ?_, fun e he => ?_, ?_⟩
  · have := hm1 e he; omega
  · have := hm2 e he; omega
  · have := hm3 e he; omega
  · unfold xrefWidths; simp only; split <;> omega

/-! ### The entry loop -/

/-- The three fields of an entry. -/
def entryTyp (w1 : Nat) (e : Bytes) : Nat := fieldVal (e.take w1)
def entryF2 (w1 w2 : Nat) (e : Bytes) : Nat := fieldVal ((e.drop w1).take w2)
def entryF3 (w1 w2 w3 : Nat) (e : Bytes) : Nat := fieldVal ((e.drop (w1 + w2)).take w3)

theorem subLoop_cons (w1 w2 w3 : Nat) (e rest : Bytes) (he : e.length = w1 + w2 + w3) (c : Nat) (n : Int)
    (r : XRefResult) :
    subLoop w1 w2 w3 (c + 1) n (e ++ rest) r =
      subLoop w1 w2 w3 c (n + 1) rest
        (addEntry r n (entryTyp w1 e) (entryF2 w1 w2 e) (entryF3 w1 w2 w3 e)) := by
  have h1 : (e ++ rest).take w1 = e.take w1 := List.take_append_of_le_length (by omega)
  have h2 : ((e ++ rest).drop w1).take w2 = (e.drop w1).take w2 := by
    rw [List.drop_append_of_le_length (by omega), List.take_append_of_le_length (by simp; omega)]
  have h3 : ((e ++ rest).drop (w1 + w2)).take w3 = (e.drop (w1 + w2)).take w3 := by
    rw [List.drop_append_of_le_length (by omega), List.take_append_of_le_length (by simp; omega)]
  have h4 : (e ++ rest).drop (w1 + w2 + w3) = rest := by rw [← he]; simp
  rw [subLoop]
  rw [if_neg (by simp; omega)]
  simp only [h1, h2, h3, h4, entryTyp, entryF2, entryF3]

/-- What a list of entries starting at number `n` says about the number `m`. -/
def entryAt (es : List Bytes) (n m : Int) : Option Bytes :=
  if n ≤ m then es[(m - n).toNat]? else none

theorem entryAt_cons_eq (e : Bytes) (es : List Bytes) (n : Int) : entryAt (e :: es) n n = some e := by
  simp [entryAt]

theorem entryAt_cons_ne (e : Bytes) (es : List Bytes) (n m : Int) (h : m ≠ n) :
    entryAt (e :: es) n m = entryAt es (n + 1) m := by
  unfold entryAt
  by_cases h1 : n ≤ m
  · rw [if_pos h1, if_pos (by omega)]
    rw [show (m - n).toNat = (m - (n + 1)).toNat + 1 by omega, List.getElem?_cons_succ]
  · rw [if_neg h1, if_neg (by omega)]

theorem entryAt_self_next (es : List Bytes) (n : Int) : entryAt es (n + 1) n = none := by
  unfold entryAt; rw [if_neg (by omega)]

theorem subLoop_spec (w1 w2 w3 : Nat) (es : List Bytes) (hes : ∀ e ∈ es, e.length = w1 + w2 + w3)
    (rest : Bytes) (n : Int) (r : XRefResult) :
    (subLoop w1 w2 w3 es.length n (es.flatten ++ rest) r).1 = rest ∧
    (∀ m, (subLoop w1 w2 w3 es.length n (es.flatten ++ rest) r).2.objects.get m =
      match entryAt es n m with
      | some e => if entryTyp w1 e = 1 ∧ entryF2 w1 w2 e > 0 then some (entryF2 w1 w2 e) else r.objects.get m
      | none => r.objects.get m) ∧
    (∀ m, (subLoop w1 w2 w3 es.length n (es.flatten ++ rest) r).2.objectStreams.get m =
      match entryAt es n m with
      | some e => if entryTyp w1 e = 2 then some (entryF2 w1 w2 e, entryF3 w1 w2 w3 e) else r.objectStreams.get m
      | none => r.objectStreams.get m) := by
  induction es generalizing n r with
  | nil => simp [subLoop, entryAt]
  | cons e es ih =>
    simp only [List.length_cons, List.flatten_cons, List.append_assoc]
    rw [subLoop_cons _ _ _ _ _ (hes e (by simp))]
    obtain ⟨h1, h2, h3⟩ := ih (fun e he => hes e (by simp [he])) (n + 1)
      (addEntry r n (entryTyp w1 e) (entryF2 w1 w2 e) (entryF3 w1 w2 w3 e))
    refine ⟨h1, ?_, ?_⟩
    · intro m
      rw [h2 m]
      by_cases hm : m = n
      · subst hm
        rw [entryAt_cons_eq, entryAt_self_next]
        simp only [addEntry]
        by_cases ht : entryTyp w1 e = 1
        · by_cases hf : entryF2 w1 w2 e > 0
          · simp [ht, hf, Map.get_set_eq]
          · simp [ht, hf]
        · simp only [ht, if_false, false_and]
          split <;> rfl
      · rw [entryAt_cons_ne _ _ _ _ hm]
        have hr : (addEntry r n (entryTyp w1 e) (entryF2 w1 w2 e) (entryF3 w1 w2 w3 e)).objects.get m =
            r.objects.get m := by
          simp only [addEntry]
          split
          · split
            · exact Map.get_set_ne _ _ hm
            · rfl
          · split <;> rfl
        rw [hr]
    · intro m
      rw [h3 m]
      by_cases hm : m = n
      · subst hm
        rw [entryAt_cons_eq, entryAt_self_next]
        simp only [addEntry]
        by_cases ht : entryTyp w1 e = 1
        · simp only [ht, if_true]
          split <;> simp
        · by_cases ht2 : entryTyp w1 e = 2
          · simp [ht2, Map.get_set_eq]
          · simp [ht, ht2]
      · rw [entryAt_cons_ne _ _ _ _ hm]
        have hr : (addEntry r n (entryTyp w1 e) (entryF2 w1 w2 e) (entryF3 w1 w2 w3 e)).objectStreams.get m =
            r.objectStreams.get m := by
          simp only [addEntry]
          split
          · split <;> rfl
          · split
            · exact Map.get_set_ne _ _ hm
            · rfl
        rw [hr]

/-! ### The entries the writer produces -/

/-- The entries of the stream, one per number below /Size. -/
def entries (next : Int) (bufLen : Nat) (ps : Map Int Nat) (stm : Map Int StmRef) : List Bytes :=
  let w2 := (xrefWidths bufLen ps stm).1
  let w3 := (xrefWidths bufLen ps stm).2
  List.replicate (1 + w2 + w3) 0 ::
    ((List.range (next.toNat - 1)).map (fun k => xrefEntry w2 w3 ps stm (k + 1)) ++
      [1 :: (bigEndian w2 bufLen ++ List.replicate w3 0)])

theorem data_entries (next : Int) (bufLen : Nat) (ps : Map Int Nat) (stm : Map Int StmRef) :
    xrefStreamData next bufLen ps stm = (entries next bufLen ps stm).flatten := by
  simp [xrefStreamData, entries, List.append_assoc]

theorem xrefEntry_length (w2 w3 : Nat) (ps : Map Int Nat) (stm : Map Int StmRef) (i : Nat) :
    (xrefEntry w2 w3 ps stm i).length = 1 + w2 + w3 := by
  unfold xrefEntry
  split
  · simp [bigEndian_length]; omega
  · split
    · simp [bigEndian_length]; omega
    · simp; omega

theorem entries_length (next : Int) (bufLen : Nat) (ps : Map Int Nat) (stm : Map Int StmRef) :
    ∀ e ∈ entries next bufLen ps stm,
      e.length = 1 + (xrefWidths bufLen ps stm).1 + (xrefWidths bufLen ps stm).2 := by
  intro e he
  simp only [entries, List.mem_cons, List.mem_append, List.mem_map, List.not_mem_nil, or_false] at he
  rcases he with rfl | ⟨k, _, rfl⟩ | rfl
  · simp
  · exact xrefEntry_length ..
  · simp [bigEndian_length]; omega

theorem entries_count (next : Int) (hn : 1 ≤ next) (bufLen : Nat) (ps : Map Int Nat) (stm : Map Int StmRef) :
    (entries next bufLen ps stm).length = (next + 1).toNat := by
  simp [entries]; omega

theorem fields_of (t : UInt8) (a b : Bytes) :
    entryTyp 1 (t :: (a ++ b)) = t.toNat ∧ entryF2 1 a.length (t :: (a ++ b)) = fieldVal a ∧
    entryF3 1 a.length b.length (t :: (a ++ b)) = fieldVal b := by
  refine ⟨by simp [entryTyp, fieldVal], by simp [entryF2], ?_⟩
  unfold entryF3
  rw [show (1 + a.length) = a.length + 1 by omega, List.drop_succ_cons]
  simp

theorem fields_of' (t : UInt8) (a b : Bytes) (w2 w3 : Nat) (h2 : a.length = w2) (h3 : b.length = w3) :
    entryTyp 1 (t :: (a ++ b)) = t.toNat ∧ entryF2 1 w2 (t :: (a ++ b)) = fieldVal a ∧
    entryF3 1 w2 w3 (t :: (a ++ b)) = fieldVal b := by
  subst h2; subst h3; exact fields_of t a b

theorem get_mem {ν : Type} (m : Map Int ν) (k : Int) (v : ν) (h : m.get k = some v) : (k, v) ∈ m := by
  unfold Map.get at h
  cases hf : List.find? (fun e => decide (e.1 = k)) m with
  | none => rw [hf] at h; simp at h
  | some e =>
    rw [hf] at h
    simp at h
    have h1 := List.mem_of_find?_eq_some hf
    have h2 := List.find?_some hf
    simp at h2
    obtain ⟨a, b⟩ := e
    simp at h h2
    subst h; subst h2; exact h1

/-- The result of reading the written entries. -/
theorem parse_written (next : Int) (hn : 1 ≤ next) (bufLen : Nat) (hb : 0 < bufLen) (ps : Map Int Nat)
    (stm : Map Int StmRef) (hps : ∀ e ∈ ps, 0 < e.2) (rest : Bytes) :
    let r := parseEntries 1 (xrefWidths bufLen ps stm).1 (xrefWidths bufLen ps stm).2 [(0, next + 1)]
      (xrefStreamData next bufLen ps stm ++ rest) { objects := [], objectStreams := [] }
    (∀ m, r.objects.get m =
      if m = next then some bufLen
      else if 1 ≤ m ∧ m < next then (if (stm.get m).isSome then none else ps.get m) else none) ∧
    (∀ m, r.objectStreams.get m =
      if 1 ≤ m ∧ m < next then (stm.get m).map (fun s => (s.streamObjNum.toNat, s.index)) else none) := by
  intro r
  have hr : r = (subLoop 1 (xrefWidths bufLen ps stm).1 (xrefWidths bufLen ps stm).2
      (entries next bufLen ps stm).length 0 ((entries next bufLen ps stm).flatten ++ rest)
      { objects := [], objectStreams := [] }).2 := by
    simp only [r, parseEntries, data_entries, entries_count next hn]
  obtain ⟨_, h2, h3⟩ := subLoop_spec 1 (xrefWidths bufLen ps stm).1 (xrefWidths bufLen ps stm).2
    (entries next bufLen ps stm) (entries_length next bufLen ps stm) rest 0 { objects := [], objectStreams := [] }
  obtain ⟨g1, g2, g3, g4, g5⟩ := widths_ok bufLen ps stm
  -- the entry of a number
  have hent : ∀ m : Int, entryAt (entries next bufLen ps stm) 0 m =
      if m = 0 then some (List.replicate (1 + (xrefWidths bufLen ps stm).1 + (xrefWidths bufLen ps stm).2) 0)
      else if m = next then some (1 :: (bigEndian (xrefWidths bufLen ps stm).1 bufLen ++
        List.replicate (xrefWidths bufLen ps stm).2 0))
      else if 1 ≤ m ∧ m < next then
        some (xrefEntry (xrefWidths bufLen ps stm).1 (xrefWidths bufLen ps stm).2 ps stm m.toNat)
      else none := by
    intro m
    unfold entryAt
    by_cases h0 : 0 ≤ m
    · rw [if_pos h0]
      obtain ⟨k, rfl⟩ := Int.eq_ofNat_of_zero_le h0
      cases k with
      | zero => simp [entries]
      | succ j =>
        rw [if_neg (by omega)]
        rw [show (((j + 1 : Nat) : Int) - 0).toNat = j + 1 by omega]
        simp only [entries, List.getElem?_cons_succ]
        by_cases hj : j < next.toNat - 1
        · rw [if_neg (by omega), if_pos (by omega)]
          rw [List.getElem?_append_left (by simpa using hj), List.getElem?_map, List.getElem?_range hj]
          rfl
        · rw [List.getElem?_append_right (by simpa using hj)]
          by_cases hj2 : j = next.toNat - 1
          · rw [if_pos (by omega)]
            simp [hj2]
          · rw [if_neg (by omega), if_neg (by omega)]
            apply List.getElem?_eq_none
            simp; omega
    · rw [if_neg h0, if_neg (by omega), if_neg (by omega), if_neg (by omega)]
  have hz : ∀ t, entryTyp 1 (List.replicate (1 + t) 0) = 0 := by
    intro t
    rw [show 1 + t = t + 1 by omega]
    simp [entryTyp, fieldVal, List.replicate_succ]
  -- the entry of a number in between
  have hx : ∀ m : Nat,
      (stm.get (m : Int) = none → ps.get (m : Int) = none →
        entryTyp 1 (xrefEntry (xrefWidths bufLen ps stm).1 (xrefWidths bufLen ps stm).2 ps stm m) = 0) ∧
      (∀ p, stm.get (m : Int) = none → ps.get (m : Int) = some p →
        entryTyp 1 (xrefEntry (xrefWidths bufLen ps stm).1 (xrefWidths bufLen ps stm).2 ps stm m) = 1 ∧
        entryF2 1 (xrefWidths bufLen ps stm).1
          (xrefEntry (xrefWidths bufLen ps stm).1 (xrefWidths bufLen ps stm).2 ps stm m) = p) ∧
      (∀ s, stm.get (m : Int) = some s →
        entryTyp 1 (xrefEntry (xrefWidths bufLen ps stm).1 (xrefWidths bufLen ps stm).2 ps stm m) = 2 ∧
        entryF2 1 (xrefWidths bufLen ps stm).1
          (xrefEntry (xrefWidths bufLen ps stm).1 (xrefWidths bufLen ps stm).2 ps stm m) = s.streamObjNum.toNat ∧
        entryF3 1 (xrefWidths bufLen ps stm).1 (xrefWidths bufLen ps stm).2
          (xrefEntry (xrefWidths bufLen ps stm).1 (xrefWidths bufLen ps stm).2 ps stm m) = s.index) := by
    intro m
    refine ⟨fun hs hp => ?_, fun p hs hp => ?_, fun s hs => ?_⟩
    · simp only [xrefEntry, hs, hp]
      exact (fields_of 0 _ _).1
    · simp only [xrefEntry, hs, hp]
      obtain ⟨a, b, _⟩ := fields_of' 1 (bigEndian (xrefWidths bufLen ps stm).1 p)
        (List.replicate (xrefWidths bufLen ps stm).2 0) _ _ (bigEndian_length _ _) List.length_replicate
      refine ⟨a, ?_⟩
      rw [b, fieldVal_bigEndian _ _ (g1 _ (get_mem _ _ _ hp))]
    · simp only [xrefEntry, hs]
      obtain ⟨a, b, c⟩ := fields_of' 2 (bigEndian (xrefWidths bufLen ps stm).1 s.streamObjNum.toNat)
        (bigEndian (xrefWidths bufLen ps stm).2 s.index) _ _ (bigEndian_length _ _) (bigEndian_length _ _)
      refine ⟨a, ?_, ?_⟩
      · rw [b, fieldVal_bigEndian _ _ (g3 _ (get_mem _ _ _ hs))]
      · rw [c, fieldVal_bigEndian _ _ (g4 _ (get_mem _ _ _ hs))]
  have hlast := fields_of' 1 (bigEndian (xrefWidths bufLen ps stm).1 bufLen)
    (List.replicate (xrefWidths bufLen ps stm).2 0) _ _ (bigEndian_length _ _) List.length_replicate
  constructor
  · intro m
    rw [hr, h2 m, hent m]
    by_cases h0 : m = 0
    · rw [if_pos h0]
      simp only [Nat.add_assoc, hz]
      rw [if_neg (by omega), if_neg (by omega), if_neg (by omega)]
      rfl
    rw [if_neg h0]
    by_cases h1 : m = next
    · rw [if_pos h1, if_pos h1]
      simp only [hlast.1, hlast.2.1, fieldVal_bigEndian _ _ g2]
      rw [if_pos ⟨rfl, hb⟩]
    rw [if_neg h1, if_neg h1]
    by_cases h4 : 1 ≤ m ∧ m < next
    · rw [if_pos h4, if_pos h4]
      obtain ⟨k, rfl⟩ := Int.eq_ofNat_of_zero_le (by omega : 0 ≤ m)
      rw [show ((k : Int)).toNat = k by omega]
      simp only
      obtain ⟨x1, x2, x3⟩ := hx k
      cases hs : stm.get (k : Int) with
      | some s => simp [(x3 s hs).1]; rfl
      | none =>
        cases hp : ps.get (k : Int) with
        | none => simp [x1 hs hp]; rfl
        | some p =>
          have := hps _ (get_mem _ _ _ hp)
          simp [(x2 p hs hp).1, (x2 p hs hp).2, this]
    · rw [if_neg h4, if_neg h4]; rfl
  · intro m
    rw [hr, h3 m, hent m]
    by_cases h0 : m = 0
    · rw [if_pos h0]
      simp only [Nat.add_assoc, hz]
      rw [if_neg (by omega), if_neg (by omega)]
      rfl
    rw [if_neg h0]
    by_cases h1 : m = next
    · rw [if_pos h1, if_neg (by omega)]
      simp only [hlast.1]
      rfl
    rw [if_neg h1]
    by_cases h4 : 1 ≤ m ∧ m < next
    · rw [if_pos h4, if_pos h4]
      obtain ⟨k, rfl⟩ := Int.eq_ofNat_of_zero_le (by omega : 0 ≤ m)
      rw [show ((k : Int)).toNat = k by omega]
      simp only
      obtain ⟨x1, x2, x3⟩ := hx k
      cases hs : stm.get (k : Int) with
      | some s => simp [(x3 s hs).1, (x3 s hs).2.1, (x3 s hs).2.2]
      | none =>
        cases hp : ps.get (k : Int) with
        | none => simp [x1 hs hp]; rfl
        | some p => simp [(x2 p hs hp).1]; rfl
    · rw [if_neg h4, if_neg h4]; rfl

end Pdfer.XRefStream
