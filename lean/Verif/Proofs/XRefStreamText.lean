import Verif.Proofs.XRefStream
import Verif.Proofs.Text
import Mathlib.Tactic.IntervalCases

/-! `ParseXRefStreamFull` run on the text `writeXRefStream` produces. -/

namespace Pdfer.XRefStream

open Pdfer.Go Pdfer.Writer

theorem xrefDict_text (next : Int) (w2 w3 : Nat) (z : Bytes) :
    formatDictionary (xrefStreamDict next w2 w3 z) =
      b!"<</Filter /FlateDecode /Length " ++ (natDec z.length ++ (b!" /Size " ++ (itoa (next + 1) ++
      (b!" /Type /XRef /W [1 " ++ (natDec w2 ++ (b!" " ++ (natDec w3 ++ b!"] >>"))))))) := by
  simp [formatDictionary, formatDictOrd, formatValue, xrefStreamDict, formatEntries, formatPair, formatItems, joinSp,
    renderEntries, sortBy, insertBy, bytesLe, slashKey, itoa, natDec_lt]
  rfl

/-- The text from `stream` on. -/
def afterDict (z tail : Bytes) : Bytes := b!"\nstream\n" ++ (z ++ (b!"\nendstream\nendobj\n" ++ tail))

/-- The dictionary text, right-nested, followed by `rest`. -/
def dictText (L S w2 w3 : Nat) (rest : Bytes) : Bytes :=
  b!"<</Filter /FlateDecode /Length " ++ (natDec L ++ (b!" /Size " ++ (natDec S ++
      (b!" /Type /XRef /W [1 " ++ (natDec w2 ++ (b!" " ++ (natDec w3 ++ (b!"] >>" ++ rest))))))))

theorem key_skip_digits {α : Type} {p : Bytes → Option α} {key : Bytes} (hp : ∀ s, p s ≠ none → (47 :: key) <+: s)
    (n : Nat) (s : Bytes) : searchWith p (natDec n ++ s) = searchWith p s := by
  apply searchWith_skip
  intro c hc t
  cases hx : p (c :: t) with
  | none => rfl
  | some a =>
    have := hp (c :: t) (by simp [hx])
    obtain ⟨r, hr⟩ := this
    simp at hr
    have h1 := natDec_digits n c hc
    rw [← hr.1] at h1
    exact absurd h1 (by decide)

theorem reKeyNum_prefix {key s : Bytes} (h : reKeyNum key s ≠ none) : key <+: s := by
  apply reLit_prefix
  intro hn
  apply h
  simp [reKeyNum, hn]

theorem reW_prefix {s : Bytes} (h : reW s ≠ none) : b!"/W" <+: s := by
  apply reLit_prefix
  intro hn
  apply h
  simp [reW, hn]

theorem reIndex_prefix {s : Bytes} (h : reIndex s ≠ none) : b!"/Index" <+: s := by
  apply reLit_prefix
  intro hn
  apply h
  simp [reIndex, hn]

theorem reDecodeParms_prefix {s : Bytes} (h : reDecodeParms s ≠ none) : b!"/DecodeParms" <+: s := by
  apply reLit_prefix
  intro hn
  apply h
  simp [reDecodeParms, hn]

theorem not_prefix_none {α : Type} {p : Bytes → Option α} {key : Bytes} (hp : ∀ s, p s ≠ none → key <+: s)
    {s : Bytes} (h : key.isPrefixOf s = false) : p s = none := by
  cases hx : p s with
  | none => rfl
  | some a =>
    have h1 := hp s (by simp [hx])
    rw [← List.isPrefixOf_iff_prefix] at h1
    rw [h1] at h
    exact absurd h (by decide)

/-- Search for a key that does not occur in a literal `a` (nor straddles its end). -/
theorem searchWith_lit {α : Type} {p : Bytes → Option α} {key : Bytes} (hp : ∀ s, p s ≠ none → key <+: s)
    (a s : Bytes) (h : ∀ i, i < a.length → key.isPrefixOf (a.drop i ++ s) = false) :
    searchWith p (a ++ s) = searchWith p s := by
  induction a with
  | nil => rfl
  | cons c a ih =>
    rw [List.cons_append, searchWith, not_prefix_none hp (by simpa using h 0 (by simp))]
    exact ih (fun i hi => by simpa using h (i + 1) (by simpa using hi))

theorem size_found (L S w2 w3 : Nat) (rest : Bytes) :
    searchWith (reKeyNum b!"/Size") (dictText L S w2 w3 rest) = some (natDec S) := by
  have hp : ∀ s, reKeyNum b!"/Size" s ≠ none → b!"/Size" <+: s := fun s => reKeyNum_prefix
  unfold dictText
  rw [searchWith_lit hp]
  · rw [key_skip_digits (key := b!"Size") hp, List.cons_append, searchWith, not_prefix_none hp (by rfl)]
    apply searchWith_here
    exact reKeyNum_natDec (key := b!"/Size") (by simp; decide)
  · intro i hi
    have : i < 31 := hi
    interval_cases i <;> rfl

theorem w_found (L S w2 w3 : Nat) (h2 : w2 ≤ 9223372036854775807) (h3 : w3 ≤ 9223372036854775807) (rest : Bytes) :
    searchWith reW (dictText L S w2 w3 rest) = some (1, w2, w3) := by
  have hp : ∀ s, reW s ≠ none → b!"/W" <+: s := fun s => reW_prefix
  unfold dictText
  rw [searchWith_lit hp]
  · rw [key_skip_digits (key := b!"W") hp, searchWith_lit hp, key_skip_digits (key := b!"W") hp]
    · rw [show b!" /Type /XRef /W [1 " = b!" /Type /XRef " ++ b!"/W [1 " from rfl, List.append_assoc, searchWith_lit hp]
      · apply searchWith_here
        have e1 : reNum (natDec 1 ++ (b!" " ++ (natDec w2 ++ (b!" " ++ (natDec w3 ++ (b!"] >>" ++ rest)))))) =
            some (natDec 1, b!" " ++ (natDec w2 ++ (b!" " ++ (natDec w3 ++ (b!"] >>" ++ rest))))) :=
          reNum_natDec (by simp; decide)
        have hsp : ∀ s : Bytes, reSp0 (49 :: s) = 49 :: s := fun s => rfl
        have hsp2 : ∀ s : Bytes, reSp0 (32 :: 91 :: s) = 91 :: s := fun s => rfl
        have hd1 : natDec 1 = [49] := by decide
        rw [hd1] at e1
        unfold reW
        rw [show b!"/W [1 " ++ (natDec w2 ++ (b!" " ++ (natDec w3 ++ (b!"] >>" ++ rest)))) =
          b!"/W" ++ (32 :: 91 :: ([49] ++ (b!" " ++ (natDec w2 ++ (b!" " ++ (natDec w3 ++ (b!"] >>" ++ rest))))))) from rfl]
        rw [reLit_append]
        simp only [Option.bind_some]
        rw [hsp2, show ∀ s : Bytes, reLit b!"[" (91 :: s) = some s from fun s => reLit_append b!"[" s]
        simp only [Option.bind_some]
        rw [show reSp0 ([49] ++ (b!" " ++ (natDec w2 ++ (b!" " ++ (natDec w3 ++ (b!"] >>" ++ rest)))))) =
          [49] ++ (b!" " ++ (natDec w2 ++ (b!" " ++ (natDec w3 ++ (b!"] >>" ++ rest))))) from rfl, e1]
        simp only [Option.bind_some]
        rw [show ∀ s : Bytes, b!" " ++ s = 32 :: s from fun s => rfl,
          reSp1_one (fun c hc => isDigit_not_reSpace (natDec_head w2 _ c hc))]
        simp only [Option.bind_some]
        rw [reNum_natDec (by simp; decide)]
        simp only [Option.bind_some]
        rw [show ∀ s : Bytes, b!" " ++ s = 32 :: s from fun s => rfl,
          reSp1_one (fun c hc => isDigit_not_reSpace (natDec_head w3 _ c hc))]
        simp only [Option.bind_some]
        rw [reNum_natDec (by simp; decide)]
        simp only [Option.bind_some]
        rw [show reSp0 (b!"] >>" ++ rest) = b!"]" ++ (b!" >>" ++ rest) from rfl, reLit_append]
        simp only [Option.map_some]
        rw [atoiClamp_natDec _ h2, atoiClamp_natDec _ h3]
        rfl
      · intro i hi
        have : i < 13 := hi
        interval_cases i <;> rfl
    · intro i hi
      have : i < 7 := hi
      interval_cases i
      all_goals first | rfl | skip
  · intro i hi
    have : i < 31 := hi
    interval_cases i <;> rfl

theorem noOcc_digits {key : Bytes} (n : Nat) : NoOcc (47 :: key) (natDec n) :=
  noOcc_of_head (not_mem_natDec (by decide) n)

/-- A key without digits, spaces and brackets that is not in the dictionary. -/
theorem noOcc_dictText {key : Bytes} (hk : key = b!"/Index" ∨ key = b!"/DecodeParms") (L S w2 w3 : Nat) (rest : Bytes)
    (h : NoOcc key rest) : NoOcc key (dictText L S w2 w3 (10 :: rest)) := by
  obtain ⟨k, hk'⟩ : ∃ k, key = 47 :: k := by rcases hk with rfl | rfl <;> exact ⟨_, rfl⟩
  have hsp : (32 : UInt8) ∉ key := by rcases hk with rfl | rfl <;> decide
  have hnl : (10 : UInt8) ∉ key := by rcases hk with rfl | rfl <;> decide
  have hlit : ∀ l ∈ [b!"<</Filter", b!"/FlateDecode", b!"/Length", b!"/Size", b!"/Type", b!"/XRef", b!"/W", b!"[1", b!">>"],
      NoOcc key l := by
    intro l hl
    rw [noOcc_iff_index]
    revert l
    rcases hk with rfl | rfl <;> decide
  have hw3 : NoOcc key (natDec w3 ++ b!"]") := by
    rw [hk']
    apply noOcc_of_head
    simp only [List.mem_append, not_or]
    exact ⟨not_mem_natDec (by decide) _, by decide⟩
  have hnum : ∀ n, NoOcc key (natDec n) := fun n => by rw [hk']; exact noOcc_digits n
  have e : dictText L S w2 w3 (10 :: rest) =
      b!"<</Filter" ++ 32 :: (b!"/FlateDecode" ++ 32 :: (b!"/Length" ++ 32 :: (natDec L ++ 32 :: (b!"/Size" ++ 32 ::
      (natDec S ++ 32 :: (b!"/Type" ++ 32 :: (b!"/XRef" ++ 32 :: (b!"/W" ++ 32 :: (b!"[1" ++ 32 :: (natDec w2 ++ 32 ::
      ((natDec w3 ++ b!"]") ++ 32 :: (b!">>" ++ 10 :: rest)))))))))))) := by
    simp [dictText]
  rw [e]
  refine noOcc_mid hsp (hlit _ (by simp)) <| noOcc_mid hsp (hlit _ (by simp)) <| noOcc_mid hsp (hlit _ (by simp)) <|
    noOcc_mid hsp (hnum _) <| noOcc_mid hsp (hlit _ (by simp)) <| noOcc_mid hsp (hnum _) <|
    noOcc_mid hsp (hlit _ (by simp)) <| noOcc_mid hsp (hlit _ (by simp)) <| noOcc_mid hsp (hlit _ (by simp)) <|
    noOcc_mid hsp (hlit _ (by simp)) <| noOcc_mid hsp (hnum _) <| noOcc_mid hsp hw3 <|
    noOcc_mid hnl (hlit _ (by simp)) h

theorem dictText_length (L S w2 w3 : Nat) (rest : Bytes) :
    (dictText L S w2 w3 rest).length =
      62 + (natDec L).length + (natDec S).length + (natDec w2).length + (natDec w3).length + rest.length := by
  simp [dictText]; omega

theorem reObj_here (N : Nat) (s : Bytes) : reObj (natDec N ++ (b!" 0 obj\n" ++ s)) = some () := by
  unfold reObj
  rw [reNum_natDec (by simp; decide)]
  rfl

theorem not_mem_dict_s (L S w2 w3 : Nat) : (115 : UInt8) ∉ dictText L S w2 w3 b!"\n" := by
  have h : ∀ n, (115 : UInt8) ∉ natDec n := not_mem_natDec (by decide)
  simp [dictText, h]

/-- `dictText` with its continuation split off. -/
theorem dictText_append (L S w2 w3 : Nat) (a b : Bytes) : dictText L S w2 w3 (a ++ b) = dictText L S w2 w3 a ++ b := by
  simp [dictText]

theorem streamWs_head {z : Bytes} (h : ∀ c, z.head? = some c → streamWs c = false) (h0 : z ≠ []) (s : Bytes) :
    (10 :: (z ++ s)).dropWhile streamWs = z ++ s := by
  rw [List.dropWhile_cons, if_pos (by decide)]
  cases z with
  | nil => exact absurd rfl h0
  | cons c z => simp [h c rfl]

theorem res_assoc {α β γ : Type} (r : Res α) (f : α → Res β) (g : β → Res γ) : (r.bind f).bind g = r.bind fun a => (f a).bind g := by
  cases r <;> rfl

theorem res_ok {α β : Type} (a : α) (f : α → Res β) : (Res.ok a).bind f = f a := rfl

/-- What both readers of cross-reference streams (core/parse/object_stream.go:32-135, core/parse/xref_stream.go:24-150) find before they
look at the entries: the window with the dictionary, the widths, the subsections and the unpacked data. -/
def found (unz : Bytes → Option Bytes) (pdf : Bytes) (start : Nat) : Res (Bytes × (Nat × Nat × Nat) × List (Int × Int) × Bytes) :=
  (sliceFrom pdf start).bind fun sec =>
  (match searchWith reObj (sec.take 500) with
    | some _ => Res.ok ()
    | none =>
      (slice pdf (if start > 100 then start - 100 else 0) (start + 500)).bind fun s =>
        Res.ofOption (searchWith reObj s)).bind fun _ =>
  (Res.ofOption (index b!"<<" sec)).bind fun dictStart =>
  (sliceFrom (sec.take 500) dictStart).bind fun d =>
  (Res.ofOption (searchWith (reKeyNum b!"/Size") d)).bind fun size =>
  (Res.ofOption (searchWith reW d)).bind fun w =>
  (Res.ofOption (index b!"stream" (sec.drop dictStart))).bind fun k =>
  (Res.ofOption (index b!"endstream" ((sec.drop (dictStart + k + 6)).dropWhile streamWs))).bind fun e =>
  (Res.ofOption (unz (((sec.drop (dictStart + k + 6)).dropWhile streamWs).take e))).bind fun plain =>
  Res.ok (sec.take 500, w, (match searchWith reIndex d with
    | some fs => indexPairs fs
    | none => [(0, (atoiClamp size : Int))]), plain)

theorem parseFull_found (unz : Bytes → Option Bytes) (pdf : Bytes) (start : Nat) :
    parseFull unz pdf start = (found unz pdf start).bind fun h =>
      if h.2.1.1 + h.2.1.2.1 + h.2.1.2.2 = 0 then Res.err
      else Res.ok (parseEntries h.2.1.1 h.2.1.2.1 h.2.1.2.2 h.2.2.1 (applyPredictor h.1 h.2.2.2) { objects := [], objectStreams := [] }) := by
  unfold parseFull found
  simp only [res_assoc, res_ok]
  rfl

/-- What is found of a written cross-reference stream. -/
theorem found_text (unz : Bytes → Option Bytes) (pre tail z plain : Bytes) (N S w2 w3 : Nat)
    (hN : N < 2 ^ 63) (hS : S < 2 ^ 63) (hL : z.length < 2 ^ 63) (h2 : w2 < 2 ^ 63) (h3 : w3 < 2 ^ 63)
    (hz : unz (z ++ b!"\n") = some plain) (hz0 : z ≠ []) (hzh : ∀ c, z.head? = some c → streamWs c = false)
    (he : NoOcc b!"endstream" z) (hi : NoOcc b!"/Index" z) (hd : NoOcc b!"/DecodeParms" z)
    (hi2 : NoOcc b!"/Index" tail) (hd2 : NoOcc b!"/DecodeParms" tail) :
    ∃ win, searchWith reDecodeParms win = none ∧
      found unz (pre ++ (natDec N ++ (b!" 0 obj\n" ++ dictText z.length S w2 w3 (afterDict z tail)))) pre.length =
        .ok (win, (1, w2, w3), [(0, (S : Int))], plain) := by
  have hlen : ∀ n, n < 2 ^ 63 → (natDec n).length ≤ 19 := fun n hn =>
    natDec_length_le 19 n (by decide) (Nat.lt_trans hn (by decide))
  -- the window
  have hwin : ∃ r, r <+: afterDict z tail ∧ r ≠ [] ∧
      (natDec N ++ (b!" 0 obj\n" ++ dictText z.length S w2 w3 (afterDict z tail))).take 500 =
        natDec N ++ (b!" 0 obj\n" ++ dictText z.length S w2 w3 r) := by
    refine ⟨(afterDict z tail).take (500 - ((natDec N).length + 7 + (62 + (natDec z.length).length + (natDec S).length +
      (natDec w2).length + (natDec w3).length))), List.take_prefix _ _, ?_, ?_⟩
    · have h1 := hlen N hN
      have h4 := hlen S hS
      have h5 := hlen z.length hL
      have h6 := hlen w2 h2
      have h7 := hlen w3 h3
      intro h
      have := congrArg List.length h
      simp [afterDict] at this
      omega
    · have e : ∀ s : Bytes, natDec N ++ (b!" 0 obj\n" ++ dictText z.length S w2 w3 s) =
        (natDec N ++ (b!" 0 obj\n" ++ dictText z.length S w2 w3 [])) ++ s := by
        intro s; simp [dictText]
      rw [e (afterDict z tail), e ((afterDict z tail).take _), List.take_append]
      have h1 := hlen N hN
      have h4 := hlen S hS
      have h5 := hlen z.length hL
      have h6 := hlen w2 h2
      have h7 := hlen w3 h3
      have hl : (natDec N ++ (b!" 0 obj\n" ++ dictText z.length S w2 w3 [])).length =
          (natDec N).length + 7 + (62 + (natDec z.length).length + (natDec S).length +
            (natDec w2).length + (natDec w3).length) := by
        rw [List.length_append, List.length_append, dictText_length]; simp; omega
      rw [List.take_of_length_le (by omega), hl]
  obtain ⟨r, hrp, hr0, hwin⟩ := hwin
  obtain ⟨r', rfl⟩ : ∃ r', r = 10 :: r' := by
    cases r with
    | nil => exact absurd rfl hr0
    | cons c r' =>
      obtain ⟨t, ht⟩ := hrp
      simp [afterDict] at ht
      exact ⟨r', by rw [ht.1]⟩
  have hocc : ∀ key, key = b!"/Index" ∨ key = b!"/DecodeParms" → NoOcc key z → NoOcc key tail → NoOcc key r' := by
    intro key hk hkz hkt
    have hnl : (10 : UInt8) ∉ key := by rcases hk with rfl | rfl <;> decide
    have hne : key ≠ [] := by rcases hk with rfl | rfl <;> decide
    have hlit : ∀ l ∈ [b!"stream", b!"endstream", b!"endobj"], NoOcc key l := by
      intro l hl
      rw [noOcc_iff_index]
      revert l
      rcases hk with rfl | rfl <;> decide
    obtain ⟨t, ht⟩ := hrp
    have hall : NoOcc key (b!"stream" ++ 10 :: (z ++ 10 :: (b!"endstream" ++ 10 :: (b!"endobj" ++ 10 :: tail)))) :=
      noOcc_mid hnl (hlit _ (by simp)) <| noOcc_mid hnl hkz <| noOcc_mid hnl (hlit _ (by simp)) <|
        noOcc_mid hnl (hlit _ (by simp)) hkt
    have hE : r' ++ t = b!"stream" ++ 10 :: (z ++ 10 :: (b!"endstream" ++ 10 :: (b!"endobj" ++ 10 :: tail))) := by
      simp [afterDict] at ht
      simpa using ht
    rw [← hE] at hall
    exact noOcc_prefix hall hne
  have hidx : ∀ s, index b!"<<" (natDec N ++ (b!" 0 obj\n" ++ dictText z.length S w2 w3 s)) =
      some ((natDec N).length + 7) := by
    intro s
    have h60 : (60 : UInt8) ∉ natDec N ++ b!" 0 obj\n" := by
      simp only [List.mem_append, not_or]
      exact ⟨not_mem_natDec (by decide) _, by decide⟩
    rw [← List.append_assoc, index_skip h60, index_here (by exact ⟨_, rfl⟩)]
    simp
  have hdrop : ∀ s, (natDec N ++ (b!" 0 obj\n" ++ dictText z.length S w2 w3 s)).drop ((natDec N).length + 7) =
      dictText z.length S w2 w3 s := by
    intro s; simp
  have hseclen : ∀ s, (natDec N).length + 7 ≤ (natDec N ++ (b!" 0 obj\n" ++ dictText z.length S w2 w3 s)).length := by
    intro s; simp
  have hstream : index b!"stream" (dictText z.length S w2 w3 (afterDict z tail)) =
      some (dictText z.length S w2 w3 b!"\n").length := by
    rw [show afterDict z tail = b!"\n" ++ (b!"stream\n" ++ (z ++ (b!"\nendstream\nendobj\n" ++ tail))) from rfl,
      dictText_append, index_skip (not_mem_dict_s _ _ _ _), index_here (by exact ⟨_, rfl⟩)]
    simp
  have hafter : (natDec N ++ (b!" 0 obj\n" ++ dictText z.length S w2 w3 (afterDict z tail))).drop
      ((natDec N).length + 7 + (dictText z.length S w2 w3 b!"\n").length + 6) =
      10 :: (z ++ (b!"\nendstream\nendobj\n" ++ tail)) := by
    rw [Nat.add_assoc, ← List.drop_drop, hdrop,
      show afterDict z tail = b!"\n" ++ (b!"stream\n" ++ (z ++ (b!"\nendstream\nendobj\n" ++ tail))) from rfl,
      dictText_append, ← List.drop_drop, List.drop_left]
    rfl
  have hend : index b!"endstream" (z ++ (b!"\nendstream\nendobj\n" ++ tail)) = some (z.length + 1) :=
    index_after (c := 10) (by decide) he (by exact ⟨_, rfl⟩)
  have hpred : searchWith reDecodeParms (natDec N ++ (b!" 0 obj\n" ++ dictText z.length S w2 w3 (10 :: r'))) = none := by
    apply searchWith_none (key := b!"/DecodeParms") (fun s => reDecodeParms_prefix)
    have hh := noOcc_dictText (Or.inr rfl) z.length S w2 w3 r' (hocc _ (Or.inr rfl) hd hd2)
    have := noOcc_mid (pat := b!"/DecodeParms") (c := 32) (by decide) (noOcc_digits N)
      (noOcc_mid (a := b!"0 obj") (c := 10) (by decide) (by rw [noOcc_iff_index]; decide) hh)
    simpa using this
  refine ⟨_, hpred, ?_⟩
  unfold found
  rw [show sliceFrom (pre ++ (natDec N ++ (b!" 0 obj\n" ++ dictText z.length S w2 w3 (afterDict z tail)))) pre.length =
    .ok (natDec N ++ (b!" 0 obj\n" ++ dictText z.length S w2 w3 (afterDict z tail))) by simp [sliceFrom]]
  simp only [Res.bind]
  rw [hwin, searchWith_here (reObj_here N _)]
  simp only [hidx, Res.ofOption]
  rw [show sliceFrom (natDec N ++ (b!" 0 obj\n" ++ dictText z.length S w2 w3 (10 :: r'))) ((natDec N).length + 7) =
    .ok (dictText z.length S w2 w3 (10 :: r')) by
      unfold sliceFrom; rw [if_pos (hseclen _), hdrop]]
  simp only [size_found, w_found z.length S w2 w3 (by omega) (by omega),
    searchWith_none (fun s => reIndex_prefix) (noOcc_dictText (Or.inl rfl) z.length S w2 w3 r' (hocc _ (Or.inl rfl) hi hi2))]
  rw [hdrop, hstream]
  simp only []
  rw [hafter, streamWs_head hzh hz0, hend]
  simp only []
  rw [show (z ++ (b!"\nendstream\nendobj\n" ++ tail)).take (z.length + 1) = z ++ b!"\n" by
    rw [List.take_append]; simp [List.take_of_length_le], hz]
  simp only []
  rw [atoiClamp_natDec _ (by omega)]

/-- What the reader makes of a written cross-reference stream. -/
theorem parseFull_text (unz : Bytes → Option Bytes) (pre tail z plain : Bytes) (N S w2 w3 : Nat)
    (hN : N < 2 ^ 63) (hS : S < 2 ^ 63) (hL : z.length < 2 ^ 63) (h2 : w2 < 2 ^ 63) (h3 : w3 < 2 ^ 63)
    (hz : unz (z ++ b!"\n") = some plain) (hz0 : z ≠ []) (hzh : ∀ c, z.head? = some c → streamWs c = false)
    (he : NoOcc b!"endstream" z) (hi : NoOcc b!"/Index" z) (hd : NoOcc b!"/DecodeParms" z)
    (hi2 : NoOcc b!"/Index" tail) (hd2 : NoOcc b!"/DecodeParms" tail) :
    parseFull unz (pre ++ (natDec N ++ (b!" 0 obj\n" ++ dictText z.length S w2 w3 (afterDict z tail)))) pre.length =
      .ok (parseEntries 1 w2 w3 [(0, (S : Int))] plain { objects := [], objectStreams := [] }) := by
  obtain ⟨win, hw, hf⟩ := found_text unz pre tail z plain N S w2 w3 hN hS hL h2 h3 hz hz0 hzh he hi hd hi2 hd2
  rw [parseFull_found, hf]
  simp only [res_ok]
  rw [if_neg (by omega)]
  unfold applyPredictor
  rw [hw]

end Pdfer.XRefStream
