import Verif.Model.Fallback
import Verif.Proofs.XRefStreamWrite
import Verif.Proofs.XRefStream
import Verif.Proofs.XRefStreamText

/-!
# The two readers of cross-reference streams, side by side
-/

namespace Pdfer.Fallback
open Pdfer.Go Pdfer.Writer Pdfer.XRefStream

theorem old_found (unz : Bytes → Option Bytes) (pdf : Bytes) (start : Nat) :
    oldXRefStream unz pdf start = (found unz pdf start).bind fun h =>
      if h.2.1.1 + h.2.1.2.1 + h.2.1.2.2 = 0 then Res.err
      else if oldEntries pdf.length h.2.1.1 h.2.1.2.1 h.2.1.2.2 h.2.2.1 h.2.2.2 [] = [] then Res.err
      else Res.ok (oldEntries pdf.length h.2.1.1 h.2.1.2.1 h.2.1.2.2 h.2.2.1 h.2.2.2 []) := by
  unfold oldXRefStream found
  simp only [res_assoc, res_ok]
  rfl

/-- The old table knows every object of the new one, and anything else in it comes from a free entry. -/
structure Covers (len : Nat) (m : Map Int Int) (r : Map Int Nat) : Prop where
  all : ∀ n, (r.get n).isSome → (m.get n).isSome
  only : ∀ n off, m.get n = some off → (∃ k : Nat, r.get n = some k ∧ off = k) ∨ (100 < off ∧ off < len)

theorem covers_entry {len : Nat} {m : Map Int Int} {r : XRefResult} (h : Covers len m r.objects) (n : Int) (t f2 f3 : Nat) :
    Covers len (oldEntry len m n t f2) (addEntry r n t f2 f3).objects := by
  unfold oldEntry addEntry
  by_cases h1 : t = 1
  · rw [if_pos h1, if_pos h1]
    by_cases h2 : f2 > 0
    · rw [if_pos h2, if_pos h2]
      refine ⟨fun k hk => ?_, fun k off hk => ?_⟩
      · simp only [Map.get_set] at hk ⊢
        split
        · rfl
        · rename_i hne
          rw [if_neg hne] at hk
          exact h.all k hk
      · simp only [Map.get_set] at hk ⊢
        by_cases e : k = n
        · rw [if_pos e] at hk ⊢
          simp only [Option.some.injEq] at hk
          exact Or.inl ⟨f2, rfl, hk.symm⟩
        · rw [if_neg e] at hk ⊢
          exact h.only k off hk
    · rw [if_neg h2, if_neg h2]; exact h
  · rw [if_neg h1, if_neg h1]
    have hsame : (if t = 2 then { r with objectStreams := r.objectStreams.set n (f2, f3) } else r).objects = r.objects := by
      split <;> rfl
    rw [hsame]
    by_cases h0 : t = 0
    · rw [if_pos h0]
      by_cases h2 : f2 > 100 ∧ f2 < len
      · rw [if_pos h2]
        refine ⟨fun k hk => ?_, fun k off hk => ?_⟩
        · rw [Map.get_set]
          split
          · rfl
          · exact h.all k hk
        · rw [Map.get_set] at hk
          split at hk
          · simp only [Option.some.injEq] at hk
            exact Or.inr (by omega)
          · exact h.only k off hk
      · rw [if_neg h2]; exact h
    · rw [if_neg h0]; exact h

theorem covers_sub {len : Nat} (w1 w2 w3 : Nat) (count : Nat) (n : Int) (data : Bytes) (m : Map Int Int) (r : XRefResult)
    (h : Covers len m r.objects) :
    (oldSub len w1 w2 w3 count n data m).1 = (subLoop w1 w2 w3 count n data r).1 ∧
    Covers len (oldSub len w1 w2 w3 count n data m).2 (subLoop w1 w2 w3 count n data r).2.objects := by
  induction count generalizing n data m r with
  | zero => exact ⟨rfl, h⟩
  | succ count ih =>
    rw [oldSub, subLoop]
    by_cases hl : data.length < w1 + w2 + w3
    · rw [if_pos hl, if_pos hl]; exact ⟨rfl, h⟩
    · rw [if_neg hl, if_neg hl]
      exact ih _ _ _ _ (covers_entry h _ _ _ _)

theorem covers_entries {len : Nat} (w1 w2 w3 : Nat) (subs : List (Int × Int)) (data : Bytes) (m : Map Int Int) (r : XRefResult)
    (h : Covers len m r.objects) :
    Covers len (oldEntries len w1 w2 w3 subs data m) (parseEntries w1 w2 w3 subs data r).objects := by
  induction subs generalizing data m r with
  | nil => exact h
  | cons s subs ih =>
    obtain ⟨first, count⟩ := s
    simp only [oldEntries, parseEntries]
    obtain ⟨h1, h2⟩ := covers_sub (len := len) w1 w2 w3 count.toNat first data m r h
    rw [h1]
    exact ih _ _ _ h2

/-- Entry by entry, where no free entry has a number that might be a place: the same table. -/
theorem same_sub {len : Nat} (w1 w2 w3 : Nat) (es : List Bytes) (hes : ∀ e ∈ es, e.length = w1 + w2 + w3)
    (hfree : ∀ e ∈ es, entryTyp w1 e = 0 → ¬ (100 < entryF2 w1 w2 e ∧ entryF2 w1 w2 e < len)) (rest : Bytes) (n : Int) (m : Map Int Int)
    (r : XRefResult) (h : ∀ k, m.get k = (r.objects.get k).map (fun x : Nat => (x : Int))) :
    ∀ k, (oldSub len w1 w2 w3 es.length n (es.flatten ++ rest) m).2.get k =
      ((subLoop w1 w2 w3 es.length n (es.flatten ++ rest) r).2.objects.get k).map (fun x : Nat => (x : Int)) := by
  induction es generalizing n m r with
  | nil => exact h
  | cons e es ih =>
    have he := hes e (by simp)
    have hf := hfree e (by simp)
    have e1 : ((e :: es).flatten ++ rest).take w1 = e.take w1 := by
      simp only [List.flatten_cons, List.append_assoc]
      rw [List.take_append_of_le_length (by omega)]
    have e2 : (((e :: es).flatten ++ rest).drop w1).take w2 = (e.drop w1).take w2 := by
      simp only [List.flatten_cons, List.append_assoc]
      rw [List.drop_append_of_le_length (by omega), List.take_append_of_le_length (by simp; omega)]
    have e4 : ((e :: es).flatten ++ rest).drop (w1 + w2 + w3) = es.flatten ++ rest := by
      simp only [List.flatten_cons, List.append_assoc]
      rw [List.drop_left' he]
    rw [List.length_cons, oldSub, subLoop, if_neg (by simp; omega), if_neg (by simp; omega)]
    simp only [e1, e2, e4]
    unfold entryTyp entryF2 at hf
    refine ih (fun x hx => hes x (by simp [hx])) (fun x hx => hfree x (by simp [hx])) _ _ _ ?_
    intro k
    unfold oldEntry addEntry
    by_cases h1 : fieldVal (e.take w1) = 1
    · rw [if_pos h1, if_pos h1]
      by_cases h2 : fieldVal ((e.drop w1).take w2) > 0
      · rw [if_pos h2, if_pos h2]
        simp only [Map.get_set]
        split
        · rfl
        · exact h k
      · rw [if_neg h2, if_neg h2]; exact h k
    · rw [if_neg h1, if_neg h1]
      have hsame : ∀ q : XRefResult, ∀ b : Nat × Nat, (if fieldVal (e.take w1) = 2 then { q with objectStreams := q.objectStreams.set n b } else q).objects = q.objects := by
        intro q b; split <;> rfl
      rw [hsame]
      by_cases h0 : fieldVal (e.take w1) = 0
      · rw [if_pos h0, if_neg (by have := hf h0; omega)]; exact h k
      · rw [if_neg h0]; exact h k

/-- What is found in a written file. -/
theorem found_written (env : Env) (unz : Bytes → Option Bytes) (w0 : Writer) (hx : w0.useXRefStream = true)
    (hi : Inv w0) (hrefs : RefsSlash w0)
    (hz0 : ∀ d, env.z d ≠ []) (hzh : ∀ d c, (env.z d).head? = some c → streamWs c = false)
    (hz : ∀ d, unz (env.z d ++ b!"\n") = some d)
    (hfile : (write env w0).1.length < 2 ^ 63) (hnext : w0.nextObjNum + 2 < 2 ^ 63)
    (hidx : ∀ e ∈ (createObjectStreams env w0).2, e.2.index < 2 ^ 63 ∧ e.2.streamObjNum.toNat < 2 ^ 63)
    (data : Bytes) (hdata : data = env.z (xrefStreamData (createObjectStreams env w0).1.nextObjNum (xPos env w0)
      (xBody env w0).2.1 (createObjectStreams env w0).2))
    (he : NoOcc b!"endstream" data) (hio : NoOcc b!"/Index" data) (hd : NoOcc b!"/DecodeParms" data) :
    ∃ win, searchWith reDecodeParms win = none ∧ found unz (write env w0).1 (xPos env w0) = .ok (win,
      (1, (xrefWidths (xPos env w0) (xBody env w0).2.1 (createObjectStreams env w0).2).1,
        (xrefWidths (xPos env w0) (xBody env w0).2.1 (createObjectStreams env w0).2).2),
      [(0, (createObjectStreams env w0).1.nextObjNum + 1)],
      xrefStreamData (createObjectStreams env w0).1.nextObjNum (xPos env w0) (xBody env w0).2.1 (createObjectStreams env w0).2) := by
  have hi' := inv_create (env := env) hi
  have hnx : (createObjectStreams env w0).1.nextObjNum ≤ w0.nextObjNum + 1 := by
    rcases create_cases env w0 with ⟨h1, _⟩ | ⟨_, o, _, h2⟩
    · rw [h1]; omega
    · omega
  obtain ⟨hf1, hf2, hf3, hf4, hf5⟩ := create_flags env w0
  have hxp := xBody_pos env w0
  have hhl := header_length (createObjectStreams env w0).1.pdfVersion
  have hnp := hi'.next_pos
  have hwr := write_xref env w0 hx
  generalize hc : createObjectStreams env w0 = c at *
  obtain ⟨w, stm⟩ := c
  simp only at *
  obtain ⟨x1, x2, x3, x4, x5⟩ := widths_ok (xPos env w0) (xBody env w0).2.1 stm
  have hpos : xPos env w0 < 2 ^ 63 := by
    have := congrArg List.length hwr
    simp only [List.length_append] at this
    have e : xPos env w0 = (header w.pdfVersion).length + (xBody env w0).1.length := by simp [xPos, hc]
    omega
  have hposp : 0 < xPos env w0 := by
    have e : xPos env w0 = (header w.pdfVersion).length + (xBody env w0).1.length := by simp [xPos, hc]
    omega
  have hw2 : (xrefWidths (xPos env w0) (xBody env w0).2.1 stm).1 ≤ 8 := by
    unfold xrefWidths
    simp only
    have m1 : maxOf ((xBody env w0).2.1.map (·.2)) < 2 ^ 63 := by
      apply maxOf_lt _ _ (by decide)
      intro x hx
      obtain ⟨e, he, rfl⟩ := List.mem_map.1 hx
      have := (hxp e he).2; omega
    have m2 : maxOf (stm.map (fun e => e.2.streamObjNum.toNat)) < 2 ^ 63 := by
      apply maxOf_lt _ _ (by decide)
      intro x hx
      obtain ⟨e, he, rfl⟩ := List.mem_map.1 hx
      exact (hidx e he).2
    split
    · exact bytesNeeded_le _ 8 (by decide) (by omega)
    · exact bytesNeeded_le _ 8 (by decide) (by omega)
  have hw3 : (xrefWidths (xPos env w0) (xBody env w0).2.1 stm).2 ≤ 8 := by
    unfold xrefWidths
    simp only
    have m1 : maxOf (stm.map (fun e => e.2.index)) < 2 ^ 63 := by
      apply maxOf_lt _ _ (by decide)
      intro x hx
      obtain ⟨e, he, rfl⟩ := List.mem_map.1 hx
      exact (hidx e he).1
    have := bytesNeeded_le (maxOf (stm.map (fun e => e.2.index))) 8 (by decide) (by omega)
    split <;> omega
  have hlen : data.length < 2 ^ 63 := by
    have := congrArg List.length hwr
    simp only [List.length_append, xrefStreamObj, ← hdata] at this
    omega
  have hpre : (header w.pdfVersion ++ (xBody env w0).1).length = xPos env w0 := by simp [xPos, hc]
  obtain ⟨win, hwin, key⟩ := found_text unz (header w.pdfVersion ++ (xBody env w0).1)
    (trailer { w with nextObjNum := w.nextObjNum + 1, heap := (xBody env w0).2.2 } ++ startxref (xPos env w0))
    data (xrefStreamData w.nextObjNum (xPos env w0) (xBody env w0).2.1 stm)
    w.nextObjNum.toNat (w.nextObjNum + 1).toNat (xrefWidths (xPos env w0) (xBody env w0).2.1 stm).1
    (xrefWidths (xPos env w0) (xBody env w0).2.1 stm).2 (by omega) (by omega) hlen (by omega) (by omega)
    (by rw [hdata]; exact hz _) (by rw [hdata]; exact hz0 _) (by rw [hdata]; exact hzh _) he hio hd
    (noOcc_tail (Or.inl rfl) _ ⟨by rw [hf3]; exact hrefs.root, by rw [hf4]; exact hrefs.info,
      by rw [hf5]; exact hrefs.encrypt⟩ _)
    (noOcc_tail (Or.inr rfl) _ ⟨by rw [hf3]; exact hrefs.root, by rw [hf4]; exact hrefs.info,
      by rw [hf5]; exact hrefs.encrypt⟩ _)
  rw [hpre] at key
  rw [hwr]
  have htext : xrefStreamObj env w.nextObjNum (xPos env w0) (xBody env w0).2.1 stm ++
      (trailer { w with nextObjNum := w.nextObjNum + 1, heap := (xBody env w0).2.2 } ++ startxref (xPos env w0)) =
      natDec w.nextObjNum.toNat ++ (b!" 0 obj\n" ++ dictText data.length (w.nextObjNum + 1).toNat
        (xrefWidths (xPos env w0) (xBody env w0).2.1 stm).1 (xrefWidths (xPos env w0) (xBody env w0).2.1 stm).2
        (afterDict data (trailer { w with nextObjNum := w.nextObjNum + 1, heap := (xBody env w0).2.2 } ++
          startxref (xPos env w0)))) := by
    unfold xrefStreamObj
    simp only [← hdata]
    rw [xrefDict_text, itoa_toNat (by omega), itoa_toNat (by omega)]
    simp only [dictText, afterDict, List.append_assoc]
  rw [htext]
  refine ⟨win, hwin, ?_⟩
  rw [key, show (((w.nextObjNum + 1).toNat : Nat) : Int) = w.nextObjNum + 1 by omega]

/-- No free entry of a written stream has a number that might be a place. -/
theorem entries_free (len : Nat) (next : Int) (bufLen : Nat) (ps : Map Int Nat) (stm : Map Int StmRef) :
    ∀ e ∈ entries next bufLen ps stm, entryTyp 1 e = 0 →
      ¬ (100 < entryF2 1 (xrefWidths bufLen ps stm).1 e ∧ entryF2 1 (xrefWidths bufLen ps stm).1 e < len) := by
  have hz : ∀ n, fieldVal (List.replicate n 0) = 0 := by
    intro n
    unfold fieldVal
    induction n with
    | zero => rfl
    | succ n ih => simpa [List.replicate_succ] using ih
  have hrep : ∀ a b : Nat, (0 : UInt8) :: (List.replicate a 0 ++ List.replicate b 0) = List.replicate (1 + a + b) 0 := by
    intro a b
    rw [List.replicate_append_replicate, ← List.replicate_succ]
    congr 1
    omega
  have h0 : entryF2 1 (xrefWidths bufLen ps stm).1 (List.replicate (1 + (xrefWidths bufLen ps stm).1 + (xrefWidths bufLen ps stm).2) 0) = 0 := by
    rw [← hrep, (fields_of' 0 _ _ _ (xrefWidths bufLen ps stm).2 List.length_replicate List.length_replicate).2.1, hz]
  intro e he ht
  simp only [entries, List.mem_cons, List.mem_append, List.mem_map, List.mem_range, List.not_mem_nil, or_false] at he
  rcases he with rfl | ⟨k, _, rfl⟩ | rfl
  · rw [h0]; omega
  · unfold xrefEntry at ht ⊢
    cases hs : stm.get ((k + 1 : Nat) : Int) with
    | some r =>
      rw [hs] at ht
      simp only at ht
      rw [(fields_of' 2 _ _ _ (xrefWidths bufLen ps stm).2 (bigEndian_length _ _) (bigEndian_length _ _)).1] at ht
      exact absurd ht (by decide)
    | none =>
      rw [hs] at ht
      cases hp : ps.get ((k + 1 : Nat) : Int) with
      | some p =>
        rw [hp] at ht
        simp only at ht
        rw [(fields_of' 1 _ _ _ (xrefWidths bufLen ps stm).2 (bigEndian_length _ _) List.length_replicate).1] at ht
        exact absurd ht (by decide)
      | none =>
        simp only [hrep, h0]
        omega
  · rw [(fields_of' 1 _ _ _ (xrefWidths bufLen ps stm).2 (bigEndian_length _ _) List.length_replicate).1] at ht
    exact absurd ht (by decide)

/-- Both readers on a written file. -/
theorem both_written (env : Env) (unz : Bytes → Option Bytes) (w0 : Writer) (hx : w0.useXRefStream = true)
    (hi : Inv w0) (hrefs : RefsSlash w0)
    (hz0 : ∀ d, env.z d ≠ []) (hzh : ∀ d c, (env.z d).head? = some c → streamWs c = false)
    (hz : ∀ d, unz (env.z d ++ b!"\n") = some d)
    (hfile : (write env w0).1.length < 2 ^ 63) (hnext : w0.nextObjNum + 2 < 2 ^ 63)
    (hidx : ∀ e ∈ (createObjectStreams env w0).2, e.2.index < 2 ^ 63 ∧ e.2.streamObjNum.toNat < 2 ^ 63)
    (data : Bytes) (hdata : data = env.z (xrefStreamData (createObjectStreams env w0).1.nextObjNum (xPos env w0)
      (xBody env w0).2.1 (createObjectStreams env w0).2))
    (he : NoOcc b!"endstream" data) (hio : NoOcc b!"/Index" data) (hd : NoOcc b!"/DecodeParms" data) :
    ∃ r m, parseFull unz (write env w0).1 (xPos env w0) = .ok r ∧ oldXRefStream unz (write env w0).1 (xPos env w0) = .ok m ∧
      ∀ k, m.get k = (r.objects.get k).map (fun x : Nat => (x : Int)) := by
  obtain ⟨win, hwin, hf⟩ := found_written env unz w0 hx hi hrefs hz0 hzh hz hfile hnext hidx data hdata he hio hd
  obtain ⟨r, hr, hr1, _⟩ := read_written env unz w0 hx hi hrefs hz0 hzh hz hfile hnext hidx data hdata he hio hd
  have hself := hr1 (createObjectStreams env w0).1.nextObjNum
  rw [if_pos rfl] at hself
  have hr' := hr
  rw [parseFull_found, hf] at hr'
  simp only [res_ok] at hr'
  have hnp := (inv_create (env := env) hi).next_pos
  rw [if_neg (by omega)] at hr'
  unfold applyPredictor at hr'
  rw [hwin] at hr'
  simp only [Res.ok.injEq] at hr'
  have key := same_sub (len := (write env w0).1.length) 1 _ _ _ (entries_length (createObjectStreams env w0).1.nextObjNum (xPos env w0) (xBody env w0).2.1
    (createObjectStreams env w0).2) (entries_free _ _ _ _ _) [] 0 [] { objects := [], objectStreams := [] } (fun _ => rfl)
  rw [entries_count _ hnp, List.append_nil, ← data_entries] at key
  have hk : ∀ k, (oldEntries (write env w0).1.length 1 (xrefWidths (xPos env w0) (xBody env w0).2.1 (createObjectStreams env w0).2).1
      (xrefWidths (xPos env w0) (xBody env w0).2.1 (createObjectStreams env w0).2).2 [(0, (createObjectStreams env w0).1.nextObjNum + 1)]
      (xrefStreamData (createObjectStreams env w0).1.nextObjNum (xPos env w0) (xBody env w0).2.1 (createObjectStreams env w0).2) []).get k =
      (r.objects.get k).map (fun x : Nat => (x : Int)) := by
    intro k
    rw [← hr']
    exact key k
  refine ⟨r, _, hr, ?_, hk⟩
  rw [old_found, hf]
  simp only [res_ok]
  rw [if_neg (by omega), if_neg]
  intro h
  have := hk (createObjectStreams env w0).1.nextObjNum
  rw [h, hself] at this
  cases this

end Pdfer.Fallback
