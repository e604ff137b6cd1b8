import Verif.Proofs.Delete

/-! Page enumeration of content/extract. -/

namespace Pdfer.Manipulate

open Pdfer.Go Pdfer.Incremental Pdfer.Spec.Manipulate

theorem contains_iff (s pat : Bytes) : contains s pat = true ↔ pat <:+: s := by
  unfold contains
  constructor
  · intro h
    apply Classical.byContradiction
    intro hn
    rw [noOcc_iff_index.1 (noOcc_iff_infix.2 hn)] at h
    simp at h
  · intro h
    cases hx : index pat s with
    | some i => rfl
    | none => exact absurd h (noOcc_iff_infix.1 (noOcc_iff_index.2 hx))

theorem xIsPage_iff (s : Bytes) : xIsPage s = true ↔ SaysPage s := by
  simp only [xIsPage, SaysPage, SaysPages, ← contains_iff, Bool.and_eq_true, Bool.or_eq_true, Bool.not_eq_true',
    Bool.or_eq_false_iff, ← Bool.not_eq_true, not_or]

theorem reRef_noSpace {s : Bytes} (h : ∀ c ∈ s, reSpace c = false) : reRef s = none := by
  unfold reRef
  cases h1 : reNum s with
  | none => rfl
  | some p =>
    obtain ⟨d, t⟩ := p
    rw [Option.bind_some]
    simp only
    have : reSp1 t = none := by
      cases t with
      | nil => rfl
      | cons c t =>
        have hs : s = d ++ (c :: t) := by
          unfold reNum at h1
          split at h1
          · simp at h1
          · simp at h1; rw [← h1.1, ← h1.2]; simp
        have := h c (by rw [hs]; simp)
        simp [reSp1, this]
    rw [this]
    rfl

theorem findRefs_noSpace {s : Bytes} (h : ∀ c ∈ s, reSpace c = false) : findRefs 0 s = [] := by
  induction s with
  | nil => rfl
  | cons c s ih =>
    rw [findRefs, reRef_noSpace h]
    exact ih (fun d hd => h d (by simp [hd]))

theorem mem_trimSpace {s : Bytes} {c : UInt8} (h : c ∈ trimSpace s) : c ∈ s := by
  unfold trimSpace at h
  rw [List.mem_reverse] at h
  have h2 := (List.dropWhile_sublist isSpace).mem h
  rw [List.mem_reverse] at h2
  exact (List.dropWhile_sublist isSpace).mem h2

theorem parseArray_noSpace {s : Bytes} (h : ∀ c ∈ s, reSpace c = false) : parseObjectRefArray s = [] := by
  unfold parseObjectRefArray
  apply findRefs_noSpace
  intro c hc
  apply h
  apply mem_trimSpace
  generalize trimSpace s = t at hc
  generalize hu : (if (b!"[").isPrefixOf t then t.drop 1 else t) = u at hc
  have h1 : c ∈ u := by
    split at hc
    · exact List.mem_of_mem_take hc
    · exact hc
  rw [← hu] at h1
  split at h1
  · exact List.mem_of_mem_drop h1
  · exact h1

theorem reTok_token {key s : Bytes} {m : Bytes × Bytes} (h : searchWith (reTok key) s = some m) :
    m.1 ≠ [] ∧ ∀ c ∈ m.1, reSpace c = false := by
  induction s with
  | nil =>
    simp only [searchWith, reTok] at h
    cases key <;> simp [reLit, reSp1] at h
  | cons c s ih =>
    rw [searchWith] at h
    cases hx : reTok key (c :: s) with
    | none => rw [hx] at h; exact ih h
    | some a =>
      rw [hx] at h
      simp at h
      subst h
      unfold reTok at hx
      cases h1 : reLit key (c :: s) with
      | none => rw [h1] at hx; simp at hx
      | some t =>
        rw [h1, Option.bind_some] at hx
        cases h2 : reSp1 t with
        | none => rw [h2] at hx; simp at hx
        | some u =>
          rw [h2, Option.bind_some] at hx
          split at hx
          · simp at hx
          · rename_i hne
            simp at hx
            subst hx
            refine ⟨hne, fun d hd => ?_⟩
            have := List.all_eq_true.1 (List.all_takeWhile (l := u) (p := tokByte)) d hd
            simp [tokByte] at this
            exact this.1.1

/-- As soon as some `/Kids` is followed by white space and a token, no page below the node is found. -/
theorem xPageNums_spaced {get : Int → Option Bytes} {n : Int} {s : Bytes} (hg : get n = some s) (hp : SaysPages s)
    (ht : searchWith (reTok b!"/Kids") s ≠ none) (fuel : Nat) : xPageNums get (fuel + 1) n = some (some []) := by
  have hnp : ¬ xIsPage s = true := by rw [xIsPage_iff]; exact fun h => h.1 hp
  obtain ⟨m, hm⟩ := Option.ne_none_iff_exists'.1 ht
  obtain ⟨h0, hsp⟩ := reTok_token hm
  simp only [xPageNums, hg]
  rw [if_neg hnp]
  have hk : xDictValue s b!"/Kids" = m.1 := by simp [xDictValue, simpleValue, hm]
  rw [hk, if_neg h0, parseArray_noSpace]
  · rfl
  · split
    · exact hsp
    · intro c hc
      simp only [List.mem_append, List.mem_singleton] at hc
      rcases hc with (hc | hc) | hc
      · subst hc; decide
      · exact hsp c hc
      · subst hc; decide

theorem reArr_body {b rest : Bytes} (hb0 : b ≠ []) (hb : ∀ x ∈ b, x ≠ 93) :
    reArr b!"/Kids" (b!"/Kids" ++ (91 :: (b ++ (93 :: rest)))) = some b := by
  unfold reArr
  have h1 : reSp0 (91 :: (b ++ (93 :: rest))) = b!"[" ++ (b ++ (93 :: rest)) := by
    simp [reSp0, List.dropWhile_cons, reSpace]
  have hall : ∀ c ∈ b, (decide (c ≠ 93)) = true := by intro c hc; simp [hb c hc]
  have h93 : ∀ c, (93 :: rest : Bytes).head? = some c → decide (c ≠ 93) = false := by intro c hc; simp at hc; simp [← hc]
  rw [reLit_append, Option.bind_some, h1, reLit_append, Option.bind_some, takeWhile_all hall h93, dropWhile_all hall h93,
    if_neg hb0, show (93 :: rest : Bytes) = b!"]" ++ rest from rfl, reLit_append]
  rfl

theorem reArr_prefix {key s : Bytes} (h : reArr key s ≠ none) : key <+: s := by
  apply reLit_prefix
  intro hn
  unfold reArr at h
  rw [hn] at h
  exact h rfl

theorem xDict_compact {s : Bytes} {nums : List Nat} (hnum : nums ≠ []) (h : CompactKids s nums) :
    ∃ b, xDictValue s b!"/Kids" = 91 :: (b ++ [93]) ∧ parseObjectRefArray (91 :: (b ++ [93])) = nums.map refText := by
  obtain ⟨pre, w1, w2, rest, h1, h2, hpre, hrest, rfl⟩ := h
  have hpre' := noOcc_iff_infix.2 hpre
  have hrest' := noOcc_iff_infix.2 hrest
  have hb := body_chars w1 nums w2 h1 h2
  have hb2 := body_noslash w1 nums w2 h1 h2
  have e : pre ++ b!"/Kids" ++ kidsArray w1 nums w2 ++ rest =
      pre ++ (b!"/Kids" ++ (91 :: ((w1 ++ (refsText nums ++ w2)) ++ (93 :: rest)))) := by rw [kidsArray_eq]; simp
  rw [e]
  refine ⟨w1 ++ (refsText nums ++ w2), ?_, by rw [parseArray, findRefs_body w1 nums w2 h1 h2]⟩
  have hne : w1 ++ (refsText nums ++ w2) ≠ [] := by
    intro h
    have : refsText nums = [] := by simp at h; exact h.2.1
    cases nums with
    | nil => exact hnum rfl
    | cons n ns =>
      cases ns with
      | nil => rw [refsText_one] at this; simp [refText] at this
      | cons m ns => rw [refsText_cons] at this; simp at this
  have htok := search_only_kids (p := reTok b!"/Kids") (fun s => reTok_prefix) hpre' hrest' hb2 (by
    unfold reTok; rw [reLit_append, Option.bind_some]; rfl)
  have hname := search_only_kids (p := reName b!"/Kids") (fun s => reName_prefix) hpre' hrest' hb2 (by
    unfold reName; rw [reLit_append, Option.bind_some, reLit_ne (by decide)]; rfl)
  have harr : searchWith (reArr b!"/Kids") (pre ++ (b!"/Kids" ++ (91 :: ((w1 ++ (refsText nums ++ w2)) ++ (93 :: rest))))) =
      some (w1 ++ (refsText nums ++ w2)) := by
    rw [searchWith_first (c := 47) (k := b!"Kids") (fun s => reArr_prefix)
      (by intro d hd; simp at hd; subst hd; decide) hpre']
    exact searchWith_here (reArr_body hne (fun x hx => (hb x hx).2))
  simp only [xDictValue, simpleValue, htok, hname, harr]
  rfl

theorem holdsCompact_le {get : Int → Option Bytes} {t : PTree} (h : HoldsCompact get t) : t.num ≤ 9223372036854775807 := by
  cases h <;> assumption

theorem xPageNums_tree {get : Int → Option Bytes} {t : PTree} (h : HoldsCompact get t) :
    ∃ F, ∀ fuel, F ≤ fuel → xPageNums get fuel t.num = some (some (t.pages.map Int.ofNat)) := by
  induction h with
  | page n s hn hg hs =>
    refine ⟨1, fun fuel hf => ?_⟩
    obtain ⟨f, rfl⟩ : ∃ f, fuel = f + 1 := ⟨fuel - 1, by omega⟩
    simp only [PTree.num, xPageNums, hg]
    rw [if_pos ((xIsPage_iff s).2 hs)]
    simp [PTree.pages]
  | node n kids s hn hg hs hk0 hks hk ih =>
    obtain ⟨F, hF⟩ := uniform kids _ ih
    refine ⟨F + 1, fun fuel hf => ?_⟩
    obtain ⟨f, rfl⟩ : ∃ f, fuel = f + 1 := ⟨fuel - 1, by omega⟩
    have hnp : ¬ xIsPage s = true := by rw [xIsPage_iff]; exact fun h => h.1 hs
    obtain ⟨b, hb1, hb2⟩ := xDict_compact (by simpa using hk0) hks
    simp only [PTree.num, xPageNums, hg]
    rw [if_neg hnp, hb1, if_neg (by simp), if_pos (by simp [List.isPrefixOf]), hb2,
      kids_tree _ kids (fun k hk' => holdsCompact_le (hk k hk')) (hF f (by omega)), pages_node]
    rfl

theorem xPageNums_diverges {get : Int → Option Bytes} {S : Nat → Prop}
    (h : ∀ n, S n → ∃ s kids, get n = some s ∧ SaysPages s ∧ CompactKids s kids ∧ ∃ k ∈ kids, S k ∧ k ≤ 9223372036854775807)
    (fuel : Nat) : ∀ n, S n → xPageNums get fuel n = none := by
  induction fuel with
  | zero => intro n _; rfl
  | succ f ih =>
    intro n hn
    obtain ⟨s, kids, hg, hs, hks, k, hk, hSk, hmax⟩ := h n hn
    have hnp : ¬ xIsPage s = true := by rw [xIsPage_iff]; exact fun h => h.1 hs
    obtain ⟨b, hb1, hb2⟩ := xDict_compact (by intro e; subst e; simp at hk) hks
    simp only [xPageNums, hg]
    rw [if_neg hnp, hb1, if_neg (by simp), if_pos (by simp [List.isPrefixOf]), hb2,
      kidsLoop_diverges _ kids k hk hmax (ih k hSk)]
    rfl

end Pdfer.Manipulate
