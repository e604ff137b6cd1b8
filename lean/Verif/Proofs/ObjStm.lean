import Verif.Proofs.XRefStreamWrite
import Verif.Spec.XRefStream

/-! Lemmas about object streams and predictors. -/

namespace Pdfer.XRefStream

open Pdfer.Go Pdfer.Writer Pdfer.Spec

theorem noOcc_of_not_occurs {pat s : Bytes} (h : ¬ Occurs pat s) : NoOcc pat s := by
  intro j hp
  obtain ⟨t, ht⟩ := hp
  apply h
  exact ⟨s.take j, t, by rw [List.append_assoc, ht, List.take_append_drop]⟩

/-! ### Header parsing -/

theorem fields_spaced (ws : List Bytes) (h : ∀ w ∈ ws, w ≠ [] ∧ ∀ c ∈ w, isSpace c = false) :
    fields (spaced ws) = ws ∧ fields (spaced ws ++ b!" ") = ws := by
  induction ws with
  | nil => exact ⟨rfl, rfl⟩
  | cons w ws ih =>
    obtain ⟨h0, h1⟩ := h w (by simp)
    have ih := ih (fun x hx => h x (by simp [hx]))
    cases ws with
    | nil =>
      refine ⟨fields_word w h1 h0, ?_⟩
      show fields (w ++ 32 :: []) = [w]
      rw [fields_word_space w h1 h0 32 (by decide)]; rfl
    | cons w2 ws =>
      constructor
      · show fields (w ++ b!" " ++ spaced (w2 :: ws)) = _
        rw [List.append_assoc]
        show fields (w ++ 32 :: spaced (w2 :: ws)) = _
        rw [fields_word_space w h1 h0 32 (by decide), ih.1]
      · show fields (w ++ b!" " ++ spaced (w2 :: ws) ++ b!" ") = _
        rw [List.append_assoc, List.append_assoc]
        show fields (w ++ 32 :: (spaced (w2 :: ws) ++ b!" ")) = _
        rw [fields_word_space w h1 h0 32 (by decide), ih.2]

theorem joinSp_spaced (ws : List Bytes) : joinSp ws = spaced ws := by
  induction ws with
  | nil => rfl
  | cons a ws ih =>
    cases ws with
    | nil => rfl
    | cons b ws => simp only [joinSp, spaced, ih]

theorem spaced_pairs (l : List (Bytes × Bytes)) :
    spaced (l.map (fun e => e.1 ++ b!" " ++ e.2)) = spaced (l.flatMap (fun e => [e.1, e.2])) := by
  induction l with
  | nil => rfl
  | cons e l ih =>
    cases l with
    | nil => simp [spaced]
    | cons e2 l => simp [spaced] at ih ⊢; exact ih

theorem atoiLax_natDec (n : Nat) (h : n ≤ 9223372036854775807) : atoiLax (natDec n) = (n : Int) := by
  have hne := natDec_ne_nil n
  have hd := natDec_digits n
  have hv := digitsVal_natDec n
  generalize hx : natDec n = ds at *
  have hall : ds.all isDigit = true := List.all_eq_true.2 hd
  cases ds with
  | nil => exact absurd rfl hne
  | cons c ds =>
    have hc : isDigit c = true := hd c (by simp)
    have h43 : c ≠ 43 := by rintro rfl; exact absurd hc (by decide)
    have h45 : c ≠ 45 := by rintro rfl; exact absurd hc (by decide)
    unfold atoiLax
    simp only
    split
    · rename_i heq; simp at heq; exact absurd heq.1 h43
    · rename_i heq; simp at heq; exact absurd heq.1 h45
    · rw [if_pos ⟨by simp, hall⟩, hv]
      simp; omega

theorem headerPairs_flat (l : List (Nat × Nat)) (h : ∀ e ∈ l, e.1 ≤ 9223372036854775807 ∧ e.2 ≤ 9223372036854775807) :
    headerPairs (l.flatMap (fun e => [natDec e.1, natDec e.2])) = l.map (fun e => ((e.1 : Int), (e.2 : Int))) := by
  induction l with
  | nil => rfl
  | cons e l ih =>
    have he := h e (by simp)
    simp only [List.flatMap_cons, List.cons_append, List.nil_append, headerPairs, List.map_cons]
    rw [ih (fun x hx => h x (by simp [hx])), atoiLax_natDec _ he.1, atoiLax_natDec _ he.2]

theorem digit_words (l : List (Nat × Nat)) :
    ∀ w ∈ l.flatMap (fun e => [natDec e.1, natDec e.2]), w ≠ [] ∧ ∀ c ∈ w, isSpace c = false := by
  intro w hw
  obtain ⟨e, _, he⟩ := List.mem_flatMap.1 hw
  simp only [List.mem_cons, List.not_mem_nil, or_false] at he
  rcases he with rfl | rfl <;>
    exact ⟨natDec_ne_nil _, fun c hc => isDigit_not_space (natDec_digits _ c hc)⟩

/-! ### Offsets -/

theorem objOffsets_length (o : Nat) (cs : List Bytes) : (objOffsets o cs).length = cs.length := by
  induction cs generalizing o with
  | nil => rfl
  | cons c cs ih => simp [objOffsets, ih]

theorem offsetsFrom_eq (o : Nat) (cs : List Bytes) : offsetsFrom o cs = objOffsets o cs := by
  induction cs generalizing o with
  | nil => rfl
  | cons c cs ih => simp [objOffsets, offsetsFrom, ih]

/-- At offset `i` of the joined contents stands the `i`-th content; the next offset is one further. -/
theorem spaced_at (o : Nat) (cs : List Bytes) (i : Nat) (c : Bytes) (off : Nat) (hc : cs[i]? = some c)
    (ho : (objOffsets o cs)[i]? = some off) :
    o ≤ off ∧ ∃ rest, (spaced cs).drop (off - o) = c ++ rest ∧
      (match cs[i + 1]? with
        | some _ => (∃ r, rest = b!" " ++ r) ∧ (objOffsets o cs)[i + 1]? = some (off + c.length + 1)
        | none => rest = [] ∧ (objOffsets o cs)[i + 1]? = none) ∧
      off - o + c.length ≤ (spaced cs).length := by
  induction cs generalizing o i with
  | nil => simp at hc
  | cons a cs ih =>
    cases i with
    | zero =>
      simp [objOffsets] at hc ho
      subst hc; subst ho
      refine ⟨Nat.le_refl _, ?_⟩
      cases cs with
      | nil => exact ⟨[], by simp [spaced], by simp [objOffsets], by simp [spaced]⟩
      | cons b cs => exact ⟨b!" " ++ spaced (b :: cs), by simp [spaced], by simp [objOffsets], by simp [spaced]⟩
    | succ i =>
      simp only [List.getElem?_cons_succ, objOffsets] at hc ho
      obtain ⟨h1, rest, h2, h3, h4⟩ := ih (o + a.length + 1) i hc ho
      cases cs with
      | nil => simp at hc
      | cons b cs =>
        have e : spaced (a :: b :: cs) = (a ++ b!" ") ++ spaced (b :: cs) := rfl
        refine ⟨by omega, rest, ?_, ?_, ?_⟩
        · rw [e, show off - o = (a ++ b!" ").length + (off - (o + a.length + 1)) by simp; omega]
          rw [← List.drop_drop, List.drop_left]
          exact h2
        · simpa only [List.getElem?_cons_succ, objOffsets] using h3
        · rw [e, List.length_append]; simp at h4 ⊢; omega

theorem streamWs_eq : streamWs = (fun b => b == 13 || b == 10 || b == 32 || b == 9) := rfl

theorem trimRight_eq (c : Bytes) : trimRight c = rstrip c := rfl

theorem trimRight_space (c : Bytes) : trimRight (c ++ b!" ") = trimRight c := by
  simp [trimRight, streamWs]

/-- Cutting the joined contents at entry offsets. -/
theorem cut_at (hdr data : Bytes) (lo : Nat) (c rest : Bytes) (hc : c ≠ []) (h : data.drop lo = c ++ rest)
    (hrest : rest = [] ∨ ∃ r, rest = b!" " ++ r) :
    (∀ r, rest = b!" " ++ r → cut (hdr ++ data) (hdr.length + lo : Nat) (hdr.length + (lo + c.length + 1) : Nat) =
      .ok (trimRight c)) ∧
    (rest = [] → cut (hdr ++ data) (hdr.length + lo : Nat) (hdr ++ data).length = .ok (trimRight c)) := by
  have hlen := congrArg List.length h
  simp only [List.length_drop, List.length_append] at hlen
  have hcl : 0 < c.length := List.length_pos_iff.2 hc
  have hdrop : (hdr ++ data).drop (hdr.length + lo) = c ++ rest := by
    rw [← List.drop_drop, List.drop_left]; exact h
  constructor
  · intro r hr
    subst hr
    unfold cut
    rw [if_neg (by simp at hlen ⊢; omega), if_pos (by omega)]
    simp only [Int.toNat_natCast]
    rw [List.drop_take, hdrop]
    rw [show hdr.length + (lo + c.length + 1) - (hdr.length + lo) = (c ++ b!" ").length by simp; omega]
    rw [← List.append_assoc, List.take_left, trimRight_space]
  · intro hr
    subst hr
    unfold cut
    rw [if_neg (by simp at hlen ⊢; omega), if_pos (by simp at hlen ⊢; omega)]
    simp only [Int.toNat_natCast]
    rw [List.take_of_length_le (Nat.le_refl _), hdrop, List.append_nil]

theorem zip_getElem? {α β : Type} (a : List α) (b : List β) (i : Nat) (x : α) (y : β) (h1 : a[i]? = some x)
    (h2 : b[i]? = some y) : (a.zip b)[i]? = some (x, y) := by
  rw [List.getElem?_zip_eq_some]; exact ⟨h1, h2⟩

theorem objOffsets_le (o : Nat) (cs : List Bytes) : ∀ off ∈ objOffsets o cs, off ≤ o + (spaced cs).length := by
  induction cs generalizing o with
  | nil => simp [objOffsets]
  | cons c cs ih =>
    intro off hoff
    simp only [objOffsets, List.mem_cons] at hoff
    rcases hoff with rfl | hoff
    · omega
    · have := ih _ off hoff
      cases cs with
      | nil => simp [objOffsets] at hoff
      | cons b cs => simp [spaced] at this ⊢; omega

/-- A conforming object stream is read correctly. -/
theorem extract_conforming (objs : List (Nat × Bytes)) (hn : ∀ e ∈ objs, e.1 < 2 ^ 63 ∧ e.2 ≠ [])
    (hl : (objStream objs).2.length < 2 ^ 63) (i : Nat) (n : Nat) (c : Bytes) (h : objs[i]? = some (n, c)) :
    extract (objStream objs).1 (objStream objs).2 n i = .ok (rstrip c) := by
  have hi : i < objs.length := by
    rw [List.getElem?_eq_some_iff] at h; exact h.1
  have hoffl : (objOffsets 0 (objs.map (·.2))).length = objs.length := by rw [objOffsets_length]; simp
  obtain ⟨off, hoff⟩ : ∃ off, (objOffsets 0 (objs.map (·.2)))[i]? = some off := by
    exact ⟨_, List.getElem?_eq_getElem (by rw [hoffl]; exact hi)⟩
  have hcs : (objs.map (·.2))[i]? = some c := by rw [List.getElem?_map, h]; rfl
  obtain ⟨_, rest, h2, h3, h4⟩ := spaced_at 0 (objs.map (·.2)) i c off hcs hoff
  -- the header
  have hpl : (objStream objs).2 = (objHeader objs ++ b!" ") ++ spaced (objs.map (·.2)) := rfl
  have hfirst : (objStream objs).1 = (objHeader objs ++ b!" ").length := by simp [objStream]
  have hpairs : headerPairs (fields (objHeader objs ++ b!" ")) =
      (objs.zip (objOffsets 0 (objs.map (·.2)))).map (fun e => ((e.1.1 : Int), (e.2 : Int))) := by
    have e : objHeader objs = spaced (((objs.zip (objOffsets 0 (objs.map (·.2)))).map (fun e => (e.1.1, e.2))).flatMap
        (fun e => [natDec e.1, natDec e.2])) := by
      unfold objHeader
      rw [List.flatMap_map]
    rw [e, (fields_spaced _ (digit_words _)).2, headerPairs_flat, List.map_map]
    · rfl
    · intro x hx
      obtain ⟨y, hy, rfl⟩ := List.mem_map.1 hx
      obtain ⟨y1, y2⟩ := List.of_mem_zip hy
      have a := (hn _ y1).1
      have b := objOffsets_le 0 _ _ y2
      rw [hpl, List.length_append] at hl
      simp only at a b ⊢
      omega
  unfold extract
  rw [hfirst, hpl]
  rw [show sliceTo ((objHeader objs ++ b!" ") ++ spaced (objs.map (·.2))) (objHeader objs ++ b!" ").length =
    .ok (objHeader objs ++ b!" ") by
      unfold sliceTo; rw [if_pos (by simp), List.take_left]]
  simp only [Res.bind]
  rw [hpairs]
  have hei : ((objs.zip (objOffsets 0 (objs.map (·.2)))).map (fun e => ((e.1.1 : Int), (e.2 : Int))))[i]? =
      some ((n : Int), (off : Int)) := by
    rw [List.getElem?_map, zip_getElem? _ _ _ _ _ h hoff]; rfl
  rw [hei]
  simp only [if_true]
  have hcne := (hn _ (List.mem_of_getElem? h)).2
  cases hn1 : objs[i + 1]? with
  | none =>
    have hcs1 : (objs.map (·.2))[i + 1]? = none := by rw [List.getElem?_map, hn1]; rfl
    rw [hcs1] at h3
    have : ((objs.zip (objOffsets 0 (objs.map (·.2)))).map (fun e => ((e.1.1 : Int), (e.2 : Int))))[i + 1]? = none := by
      rw [List.getElem?_map, List.getElem?_eq_none]
      · rfl
      · rw [List.length_zip]; rw [List.getElem?_eq_none_iff] at hn1; omega
    rw [this]
    simp only
    have := (cut_at (objHeader objs ++ b!" ") (spaced (objs.map (·.2))) off c rest hcne (by simpa using h2)
      (Or.inl h3.1)).2 h3.1
    rw [trimRight_eq] at this
    rw [← this]
    congr 1
  | some e1 =>
    have hcs1 : (objs.map (·.2))[i + 1]? = some e1.2 := by rw [List.getElem?_map, hn1]; rfl
    rw [hcs1] at h3
    obtain ⟨⟨r, hr⟩, ho1⟩ := h3
    have : ((objs.zip (objOffsets 0 (objs.map (·.2)))).map (fun e => ((e.1.1 : Int), (e.2 : Int))))[i + 1]? =
        some ((e1.1 : Int), ((off + c.length + 1 : Nat) : Int)) := by
      rw [List.getElem?_map, zip_getElem? _ _ _ _ _ hn1 ho1]; rfl
    rw [this]
    simp only
    have := (cut_at (objHeader objs ++ b!" ") (spaced (objs.map (·.2))) off c rest hcne (by simpa using h2)
      (Or.inr ⟨r, hr⟩)).1 r hr
    rw [trimRight_eq] at this
    rw [← this]
    congr 1

/-! ### The stream the writer produces -/

/-- The first header (offsets from 0), whose length the writer adds to the offsets it stores. -/
def firstHeader (objs : List (Nat × Bytes)) : Bytes := objHeader objs

theorem stmHeader_eq (l : List (Nat × Nat)) :
    stmHeader (l.map (fun e => ((e.1 : Int), e.2))) = spaced (l.flatMap (fun e => [natDec e.1, natDec e.2])) := by
  unfold stmHeader
  rw [joinSp_spaced, List.map_map]
  have := spaced_pairs (l.map (fun e => (natDec e.1, natDec e.2)))
  rw [List.map_map, List.flatMap_map] at this
  exact this

/-- The writer's header with the shifted offsets, and the whole stream. -/
theorem objStreamPlain_eq (objs : List (Nat × Bytes)) :
    objStreamPlain (objs.map (fun e => ((e.1 : Int), e.2))) =
      (spaced ((objs.zip (objOffsets 0 (objs.map (·.2)))).flatMap
          (fun e => [natDec e.1.1, natDec (e.2 + ((objHeader objs).length + 1))])),
       spaced ((objs.zip (objOffsets 0 (objs.map (·.2)))).flatMap
          (fun e => [natDec e.1.1, natDec (e.2 + ((objHeader objs).length + 1))])) ++ b!" " ++ spaced (objs.map (·.2))) := by
  have hz : ∀ f : Nat → Nat, ((objs.map (fun e => ((e.1 : Int), e.2))).map (·.1)).zip
      ((objOffsets 0 (objs.map (·.2))).map f) =
      ((objs.zip (objOffsets 0 (objs.map (·.2)))).map (fun e => (e.1.1, f e.2))).map (fun e => ((e.1 : Int), e.2)) := by
    intro f
    rw [List.map_map, List.map_map, List.zip_map]
    rfl
  have h1 : stmHeader (((objs.map (fun e => ((e.1 : Int), e.2))).map (·.1)).zip
      (objOffsets 0 (objs.map (·.2)))) = objHeader objs := by
    have := hz id
    rw [List.map_id] at this
    rw [this, stmHeader_eq, List.flatMap_map]
    rfl
  have hm : (objs.map (fun e => ((e.1 : Int), e.2))).map (·.2) = objs.map (·.2) := by rw [List.map_map]; rfl
  unfold objStreamPlain
  simp only [offsetsFrom_eq, hm, h1]
  rw [hz (· + ((objHeader objs).length + 1)), stmHeader_eq, joinSp_spaced, List.flatMap_map]

/-- What the reader does with a stream the writer produced: every window is too far right by the length of
the header. -/
theorem extract_written (objs : List (Nat × Bytes)) (hn : ∀ e ∈ objs, e.1 < 2 ^ 63)
    (hl : (objStream objs).2.length + (objHeader objs).length < 2 ^ 63) (i n off : Nat) (c : Bytes)
    (h : objs[i]? = some (n, c)) (hoff : (objOffsets 0 (objs.map (·.2)))[i]? = some off) :
    extract (objStreamPlain (objs.map (fun e => ((e.1 : Int), e.2)))).1.length
      (objStreamPlain (objs.map (fun e => ((e.1 : Int), e.2)))).2 n i =
    cut (objStreamPlain (objs.map (fun e => ((e.1 : Int), e.2)))).2
      (((objStreamPlain (objs.map (fun e => ((e.1 : Int), e.2)))).1.length + (off + ((objHeader objs).length + 1)) : Nat) : Int)
      (match (objOffsets 0 (objs.map (·.2)))[i + 1]? with
        | some off' =>
          (((objStreamPlain (objs.map (fun e => ((e.1 : Int), e.2)))).1.length +
            (off' + ((objHeader objs).length + 1)) : Nat) : Int)
        | none => ((objStreamPlain (objs.map (fun e => ((e.1 : Int), e.2)))).2.length : Int)) := by
  rw [objStreamPlain_eq]
  simp only
  have hpairs : headerPairs (fields (spaced ((objs.zip (objOffsets 0 (objs.map (·.2)))).flatMap
          (fun e => [natDec e.1.1, natDec (e.2 + ((objHeader objs).length + 1))])))) =
      (objs.zip (objOffsets 0 (objs.map (·.2)))).map
        (fun e => ((e.1.1 : Int), ((e.2 + ((objHeader objs).length + 1) : Nat) : Int))) := by
    have e : (objs.zip (objOffsets 0 (objs.map (·.2)))).flatMap
          (fun e => [natDec e.1.1, natDec (e.2 + ((objHeader objs).length + 1))]) =
        ((objs.zip (objOffsets 0 (objs.map (·.2)))).map (fun e => (e.1.1, e.2 + ((objHeader objs).length + 1)))).flatMap
        (fun e => [natDec e.1, natDec e.2]) := by
      rw [List.flatMap_map]
    rw [e, (fields_spaced _ (digit_words _)).1, headerPairs_flat, List.map_map]
    · rfl
    · intro x hx
      obtain ⟨y, hy, rfl⟩ := List.mem_map.1 hx
      obtain ⟨y1, y2⟩ := List.of_mem_zip hy
      have a := hn _ y1
      have b := objOffsets_le 0 _ _ y2
      simp only [objStream, List.length_append] at hl
      simp only at a b ⊢
      simp at hl
      omega
  generalize hH : spaced ((objs.zip (objOffsets 0 (objs.map (·.2)))).flatMap
          (fun e => [natDec e.1.1, natDec (e.2 + ((objHeader objs).length + 1))])) = H at *
  unfold extract
  rw [show sliceTo (H ++ b!" " ++ spaced (objs.map (·.2))) H.length = .ok H by
    unfold sliceTo; rw [if_pos (by simp), List.append_assoc, List.take_left]]
  simp only [Res.bind]
  rw [hpairs]
  have hei : ((objs.zip (objOffsets 0 (objs.map (·.2)))).map
      (fun e => ((e.1.1 : Int), ((e.2 + ((objHeader objs).length + 1) : Nat) : Int))))[i]? =
      some ((n : Int), ((off + ((objHeader objs).length + 1) : Nat) : Int)) := by
    rw [List.getElem?_map, zip_getElem? _ _ _ _ _ h hoff]; rfl
  rw [hei]
  simp only [if_true]
  have hoffl : (objOffsets 0 (objs.map (·.2))).length = objs.length := by rw [objOffsets_length]; simp
  cases ho1 : (objOffsets 0 (objs.map (·.2)))[i + 1]? with
  | none =>
    have : ((objs.zip (objOffsets 0 (objs.map (·.2)))).map
      (fun e => ((e.1.1 : Int), ((e.2 + ((objHeader objs).length + 1) : Nat) : Int))))[i + 1]? = none := by
      rw [List.getElem?_map, List.getElem?_eq_none]
      · rfl
      · rw [List.length_zip]; rw [List.getElem?_eq_none_iff] at ho1; omega
    rw [this]
    simp only
    congr 1
  | some off' =>
    have hlt : i + 1 < objs.length := by
      rw [List.getElem?_eq_some_iff] at ho1; obtain ⟨hx, _⟩ := ho1; omega
    have : ((objs.zip (objOffsets 0 (objs.map (·.2)))).map
      (fun e => ((e.1.1 : Int), ((e.2 + ((objHeader objs).length + 1) : Nat) : Int))))[i + 1]? =
        some ((objs[i + 1].1 : Int), ((off' + ((objHeader objs).length + 1) : Nat) : Int)) := by
      rw [List.getElem?_map, zip_getElem? _ _ _ _ _ (List.getElem?_eq_getElem hlt) ho1]; rfl
    rw [this]
    simp only
    congr 1

theorem trimRight_ws (t ws : Bytes) (h : ∀ c ∈ ws, streamWs c = true) : trimRight (t ++ ws) = trimRight t := by
  unfold trimRight
  congr 1
  rw [List.reverse_append]
  generalize hr : ws.reverse = r
  have h' : ∀ c ∈ r, streamWs c = true := fun c hc => h c (by rw [← List.mem_reverse, hr]; exact hc)
  clear hr h
  induction r with
  | nil => rfl
  | cons c r ih =>
    rw [List.cons_append, List.dropWhile_cons, if_pos (h' c (by simp))]
    exact ih (fun d hd => h' d (by simp [hd]))

theorem trimRight_length (t : Bytes) : (trimRight t).length ≤ t.length := by
  unfold trimRight
  rw [List.length_reverse]
  calc _ ≤ t.reverse.length := (List.dropWhile_suffix _).length_le
    _ = t.length := List.length_reverse

theorem takeWhile_all {α : Type} (p : α → Bool) (l : List α) : ∀ x ∈ l.takeWhile p, p x = true := by
  induction l with
  | nil => simp
  | cons a l ih =>
    intro x hx
    rw [List.takeWhile_cons] at hx
    split at hx
    · rcases List.mem_cons.1 hx with rfl | hx
      · assumption
      · exact ih x hx
    · simp at hx

theorem trimRight_split (c : Bytes) : ∃ ws, c = trimRight c ++ ws ∧ ∀ x ∈ ws, streamWs x = true := by
  refine ⟨(c.reverse.takeWhile streamWs).reverse, ?_, ?_⟩
  · unfold trimRight
    rw [← List.reverse_append, List.takeWhile_append_dropWhile, List.reverse_reverse]
  · intro x hx
    rw [List.mem_reverse] at hx
    exact takeWhile_all _ _ x hx

theorem trimRight_drop_length (c : Bytes) (k : Nat) : (trimRight (c.drop k)).length ≤ (trimRight c).length - k := by
  obtain ⟨ws, h1, h2⟩ := trimRight_split c
  have : c.drop k = (trimRight c).drop k ++ ws.drop (k - (trimRight c).length) := by
    conv => lhs; rw [h1]
    rw [List.drop_append]
  rw [this, trimRight_ws _ _ (fun x hx => h2 x (List.mem_of_mem_drop hx))]
  have := trimRight_length ((trimRight c).drop k)
  simpa using this

/-! ### Predictors -/

theorem subRow_pngSub (left : UInt8) (row : Bytes) : subRow left (List.zipWith (· - ·) row (left :: row)) = row := by
  induction row generalizing left with
  | nil => rfl
  | cons b row ih =>
    simp only [List.zipWith_cons_cons, subRow]
    rw [show b - left + left = b by simp]
    rw [ih b]

theorem up_inv (row above : Bytes) (h : row.length = above.length) :
    List.zipWith (· + ·) (List.zipWith (· - ·) row above) above = row := by
  induction row generalizing above with
  | nil => rfl
  | cons b row ih =>
    cases above with
    | nil => simp at h
    | cons a above => simp only [List.zipWith_cons_cons, ih above (by simpa using h)]; simp

theorem apply_length (f : PngFilter) (above row : Bytes) (h : row.length = above.length) :
    (f.apply above row).length = row.length := by
  cases f <;> simp [PngFilter.apply, pngSub, h]

theorem predRow_apply (f : PngFilter) (above row : Bytes) (h : row.length = above.length) :
    predRow f.byte above (f.apply above row) = row := by
  cases f with
  | none => rfl
  | sub => exact subRow_pngSub 0 row
  | up => exact up_inv row above h

theorem predRows_encode (columns : Nat) (above : Bytes) (rows : List (PngFilter × Bytes)) (ha : above.length = columns)
    (h : ∀ r ∈ rows, r.2.length = columns) :
    predRows columns rows.length above (pngEncode above rows) = (rows.map (·.2)).flatten := by
  induction rows generalizing above with
  | nil => rfl
  | cons r rows ih =>
    obtain ⟨f, row⟩ := r
    have hr : row.length = columns := h (f, row) (by simp)
    have hl := apply_length f above row (by omega)
    simp only [List.length_cons, pngEncode, predRows, List.map_cons, List.flatten_cons]
    rw [List.take_left' (by omega), List.drop_left' (by omega), predRow_apply f above row (by omega)]
    rw [ih row hr (fun x hx => h x (by simp [hx]))]

theorem pngEncode_length (columns : Nat) (above : Bytes) (rows : List (PngFilter × Bytes)) (ha : above.length = columns)
    (h : ∀ r ∈ rows, r.2.length = columns) : (pngEncode above rows).length = rows.length * (columns + 1) := by
  induction rows generalizing above with
  | nil => simp [pngEncode]
  | cons r rows ih =>
    obtain ⟨f, row⟩ := r
    have hr : row.length = columns := h (f, row) (by simp)
    have hl := apply_length f above row (by omega)
    simp only [pngEncode, List.length_cons, List.length_append, hl,
      ih row hr (fun x hx => h x (by simp [hx])), Nat.add_mul]
    omega

end Pdfer.XRefStream
