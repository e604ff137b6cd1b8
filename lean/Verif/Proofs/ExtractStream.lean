import Verif.Proofs.ExtractFont

/-! The content stream of a built page. -/

namespace Pdfer.Extract

open Pdfer.Go Pdfer.Enc Pdfer.Content Pdfer.Manipulate Pdfer.Spec.Manipulate Pdfer.Spec.Content Pdfer.Spec.Extract Pdfer.Crypto Pdfer.Builder Pdfer.Writer
  Pdfer.Spec.Builder Pdfer.Outline Pdfer.Incremental

variable {F : Type}

/-- The dictionary of a compressed content stream. -/
def streamDict (k : Nat) : Dict := Map.set (Map.set ([] : Dict) b!"Filter" (.str b!"/FlateDecode")) b!"Length" (.int k)

theorem streamDict_text (k : Nat) : formatDictionary (streamDict k) = b!"<</Filter /FlateDecode /Length " ++ itoa k ++ b!" >>" := by
  simp [formatDictionary, formatDictOrd, streamDict, Map.set, formatValue, formatEntries, formatPair, renderEntries, sortBy, insertBy, bytesLe, slashKey]

/-- The body of a compressed content stream with data `s`. -/
def streamBody (s : Bytes) : Bytes := formatDictionary (streamDict s.length) ++ b!"\nstream\n" ++ s ++ b!"\nendstream"

theorem avoid_data {pat s : Bytes} (h10 : (10 : UInt8) ∉ pat) (hp : pat ≠ []) (h : ¬ pat <:+: s) : Avoid pat (s ++ b!"\n") := avoid_sep h10 hp h

theorem avoid_streamHead {key : Bytes} {c : UInt8} (k : Nat) (hd : isDigit c = false) (h45 : c ≠ 45)
    (h1 : clash (c :: key) b!"<</Filter /FlateDecode /Length " = true) (h2 : clash (c :: key) b!" >>\n" = true) :
    Avoid (c :: key) (b!"<</Filter /FlateDecode /Length " ++ itoa k ++ b!" >>\n") :=
  avoid_append (avoid_append (avoid_clash h1) (avoid_head (not_mem_itoa _ hd h45))) (avoid_clash h2)

theorem stream_delimitable {z : Bytes → Bytes} {unz : Bytes → Option Bytes} {content : Bytes} (h : StreamOK z unz content) :
    Spec.Delimitable (streamBody (z content)) := by
  obtain ⟨h1, h2, -, -⟩ := h
  unfold streamBody
  rw [streamDict_text]
  refine ⟨?_, ?_, .inr ⟨b!"<</Filter /FlateDecode /Length " ++ itoa (z content).length ++ b!" >>\nstream\n" ++ z content, by simp, ?_⟩⟩
  · rw [absent_iff (by decide)]
    apply avoid_noOcc _ (by decide)
    have e : b!"<</Filter /FlateDecode /Length " ++ itoa (z content).length ++ b!" >>" ++ b!"\nstream\n" ++ z content ++ b!"\nendstream" =
        (b!"<</Filter /FlateDecode /Length " ++ itoa (z content).length ++ b!" >>\n") ++ (b!"stream\n" ++ ((z content ++ b!"\n") ++ b!"endstream")) := by simp
    rw [e]
    exact avoid_append (avoid_streamHead _ (by decide) (by decide) (by decide) (by decide)) (avoid_append (avoid_clash (by decide))
      (avoid_append (avoid_data (by decide) (by decide) h1) (avoid_clash (by decide))))
  · intro b hb
    simp at hb
    subst hb
    decide
  · rw [absent_iff (by decide), noOcc_iff_infix]
    have e : (b!"<</Filter /FlateDecode /Length " ++ itoa (z content).length ++ b!" >>\nstream\n" ++ z content) ++ b!"\n" =
        (b!"<</Filter /FlateDecode /Length " ++ itoa (z content).length ++ b!" >>\n") ++ (b!"stream\n" ++ (z content ++ b!"\n")) := by simp
    have hA : Avoid b!"endstream" ((b!"<</Filter /FlateDecode /Length " ++ itoa (z content).length ++ b!" >>\nstream\n" ++ z content) ++ b!"\n") := by
      rw [e]
      exact avoid_append (avoid_streamHead _ (by decide) (by decide) (by decide) (by decide)) (avoid_append (avoid_clash (by decide))
        (avoid_data (by decide) (by decide) h2))
    have hN := noOcc_iff_infix.1 (avoid_noOcc hA (by decide))
    exact fun hi => hN (hi.trans ⟨[], b!"\n", by simp⟩)

theorem stream_content {z : Bytes → Bytes} {unz : Bytes → Option Bytes} {content : Bytes} (h : StreamOK z unz content) (n : Int) :
    contentText unz (wrapped n (streamBody (z content))) = content := by
  obtain ⟨h1, h2, ⟨b, r, hz, hb⟩, hu⟩ := h
  have hh : Avoid b!"stream" (itoa n ++ b!" 0 obj\n" ++ (b!"<</Filter /FlateDecode /Length " ++ itoa (z content).length ++ b!" >>\n")) :=
    avoid_append (avoid_append (avoid_head (not_mem_itoa _ (by decide) (by decide))) (avoid_clash (by decide)))
      (avoid_streamHead _ (by decide) (by decide) (by decide) (by decide))
  generalize hH : itoa n ++ b!" 0 obj\n" ++ (b!"<</Filter /FlateDecode /Length " ++ itoa (z content).length ++ b!" >>\n") = H at hh
  have e : wrapped n (streamBody (z content)) = H ++ (b!"stream" ++ (10 :: ((z content ++ b!"\n") ++ b!"endstream\nendobj"))) := by
    rw [wrapped, streamBody, streamDict_text, ← hH]; simp
  have hi : index b!"stream" (wrapped n (streamBody (z content))) = some H.length := by
    rw [e]
    exact index_first (by decide) (avoid_noOcc hh (by decide))
  have hafter : afterStream (wrapped n (streamBody (z content))) = some ((z content ++ b!"\n") ++ b!"endstream\nendobj") := by
    unfold afterStream
    rw [hi]
    simp only [Option.map_some, Option.some.injEq]
    have hd : (wrapped n (streamBody (z content))).drop (H.length + 6) = 10 :: ((z content ++ b!"\n") ++ b!"endstream\nendobj") := by
      rw [e, ← List.drop_drop, List.drop_left]
      rfl
    rw [hd, hz]
    have : ¬ (((10 : UInt8) :: ((b :: r ++ b!"\n") ++ b!"endstream\nendobj")).drop 1).head?.any (fun c => c == 10) = true := by simpa using hb
    simp only [List.head?_cons, Option.any_some, beq_self_eq_true, Bool.or_true, if_true]
    rw [if_neg this]
    rfl
  have hend : index b!"endstream" ((z content ++ b!"\n") ++ b!"endstream\nendobj") = some (z content ++ b!"\n").length := by
    rw [index_avoid (avoid_data (by decide) (by decide) h2)]
    have : index b!"endstream" b!"endstream\nendobj" = some 0 := by decide
    rw [this]
    simp
  have hf : contains (wrapped n (streamBody (z content))) b!"/FlateDecode" = true := by
    rw [contains_iff]
    refine ⟨itoa n ++ b!" 0 obj\n<</Filter ", b!" /Length " ++ itoa (z content).length ++ b!" >>\nstream\n" ++ z content ++ b!"\nendstream\nendobj", ?_⟩
    rw [wrapped, streamBody, streamDict_text]
    simp
  unfold contentText
  rw [hafter]
  simp only
  rw [hend]
  simp only
  rw [if_pos hf, List.take_left, hu]
  rfl

/-- What is read when nothing was drawn. -/
theorem empty_content (fl : Floats F) (fonts : Option (Map Bytes Decoder)) (unz : Bytes → Option Bytes) (n : Int) :
    parseContent fl fonts (contentText unz (wrapped n [])) = parseContent fl fonts [] := by
  have hA : Avoid b!"stream" (wrapped n []) := by
    unfold wrapped
    exact avoid_append (avoid_append (avoid_append (avoid_head (not_mem_itoa _ (by decide) (by decide))) (avoid_clash (by decide))) (avoid_nil _))
      (avoid_clash (by decide))
  have hi : index b!"stream" (wrapped n []) = none := by
    have := index_avoid (s := []) hA
    rw [List.append_nil] at this
    rw [this]
    rfl
  have hc : contentText unz (wrapped n []) = wrapped n [] := by
    unfold contentText afterStream
    rw [hi]
    rfl
  have hns : ∀ m ∈ [itoa n, b!"0"], NumText m := by
    intro m hm
    simp only [List.mem_cons, List.not_mem_nil, or_false] at hm
    rcases hm with rfl | rfl
    · exact itoa_num n
    · exact itoa_num 0
  have e1 : itoa n ++ b!" 0 obj" = spacedNums [itoa n, b!"0"] ++ b!"obj" := by simp [spacedNums]
  have hl1 : ∀ st : State F, lineStep fl fonts st (itoa n ++ b!" 0 obj") = st := by
    intro st
    rw [e1, lineStep_tight fl fonts st (tight_nums hns (by simp) (d := 106) rfl (by decide)), showOps_nums fl st hns (by simp),
      textOps_nums fl fonts st hns (by simp) (opText_of (by decide)) (by decide), graphicsOps_nums fl st hns (by simp) (opText_of (by decide)) (by decide)]
    rfl
  have hl3 : ∀ st : State F, lineStep fl fonts st b!"endobj" = st := by
    intro st
    rw [lineStep_tight fl fonts st ⟨_, _, rfl, by decide, rfl, by decide⟩, textOps_none fl fonts st _ (by decide) (by decide) (by decide) (by decide) (by decide) (by decide)
      (by decide) (by decide), showOps_none fl st _ (by decide) (by decide) (by decide),
      graphicsOps_none fl st _ (by decide) (by decide) (by decide) (by decide) (by decide) (by decide) (by decide) (by decide) (by decide) (by decide) (by decide) (by decide)]
    rfl
  rw [hc]
  unfold parseContent
  have e : wrapped n [] = (itoa n ++ b!" 0 obj") ++ 10 :: ([] ++ 10 :: b!"endobj") := by simp [wrapped]
  have hno : (10 : UInt8) ∉ itoa n ++ b!" 0 obj" := by
    rw [List.mem_append, not_or]
    exact ⟨not_mem_itoa n (by decide) (by decide), by decide⟩
  rw [e, split_cons 10 _ _ hno, split_cons 10 _ _ (by simp), List.foldl_cons, List.foldl_cons, hl1]
  have : split 10 b!"endobj" = [b!"endobj"] := by decide
  rw [this, List.foldl_cons, List.foldl_nil, hl3]
  rfl

/-- The references to the content of a built page. -/
theorem page_contentRefs (ord : List (Bytes × Int) → List (Bytes × Int)) (n parent contents : Int) (p : Builder.Page) (hp : FreePage p)
    (hc : 0 < contents) : contentRefs (wrapped n (pageText ord parent contents p)) = [natDec contents.toNat] := by
  unfold contentRefs
  rw [page_contents ord n parent contents p hp hc]
  simp only [natDec_ne_nil, if_false]
  have hd : ∀ c ∈ natDec contents.toNat, isSpace c = false ∧ c ≠ 93 ∧ c ≠ 91 ∧ c ≠ 47 := fun c h => digit_facts c (natDec_digits _ c h)
  have hnil : parseObjectRefArray (natDec contents.toNat) = [] := by
    unfold parseObjectRefArray
    simp only
    have : ∀ t : Bytes, (∀ c ∈ t, c ∈ natDec contents.toNat) → findRefs 0 t = [] := fun t ht =>
      findRefs_noSpace fun c hc => isDigit_not_reSpace (natDec_digits contents.toNat c (ht c hc))
    apply this
    have h1 : ∀ c ∈ trimSpace (natDec contents.toNat), c ∈ natDec contents.toNat := by
      intro c hc
      unfold trimSpace at hc
      rw [List.mem_reverse] at hc
      have := (List.dropWhile_suffix _).subset hc
      rw [List.mem_reverse] at this
      exact (List.dropWhile_suffix _).subset this
    intro c hc
    apply h1
    split at hc
    · split at hc
      · exact List.mem_of_mem_drop (List.mem_of_mem_take hc)
      · exact List.mem_of_mem_drop hc
    · split at hc
      · exact List.mem_of_mem_take hc
      · exact hc
  rw [hnil]
  rfl

end Pdfer.Extract
