import Verif.Model.Manipulate
import Verif.Spec.Manipulate
import Verif.Proofs.Text

/-! Texts with a first occurrence of a key; `reTok`, `reName`, `replaceRe`. -/

namespace Pdfer.Manipulate

open Pdfer.Go Pdfer.Incremental Pdfer.Spec.Manipulate

theorem noOcc_iff_infix {pat s : Bytes} : NoOcc pat s ↔ ¬ pat <:+: s := by
  constructor
  · rintro h ⟨a, b, e⟩
    apply h a.length
    rw [← e]
    simp
  · intro h j ⟨t, ht⟩
    apply h
    refine ⟨s.take j, t, ?_⟩
    rw [List.append_assoc, ht, List.take_append_drop]

/-- A key cannot start in `pre` when it does not occur there and the byte after `pre` does not continue the key. -/
theorem no_straddle {c : UInt8} {k pre t : Bytes} (hpre : NoOcc (c :: k) pre)
    (ht : ∀ d, t.head? = some d → d ∉ k) (j : Nat) (hj : j < pre.length) : ¬ (c :: k) <+: (pre ++ t).drop j := by
  rintro ⟨u, hu⟩
  rw [List.drop_append_of_le_length (by omega)] at hu
  generalize hA : pre.drop j = A at hu
  have hAl : A.length = pre.length - j := by rw [← hA]; simp
  by_cases hle : (c :: k).length ≤ A.length
  · apply hpre j
    rw [hA]
    have := congrArg (List.take (c :: k).length) hu
    rw [List.take_append_of_le_length (by simp), List.take_append_of_le_length hle] at this
    refine ⟨A.drop (c :: k).length, ?_⟩
    have h2 : c :: k = A.take (c :: k).length := by simpa using this
    conv => lhs; lhs; rw [h2]
    exact List.take_append_drop _ _
  · have hAlt : A.length < (c :: k).length := by omega
    have h1 : ((c :: k) ++ u)[A.length]? = (A ++ t)[A.length]? := by rw [hu]
    rw [List.getElem?_append_left hAlt, List.getElem?_append_right (by omega)] at h1
    simp only [Nat.sub_self] at h1
    obtain ⟨m, hm⟩ : ∃ m, A.length = m + 1 := ⟨A.length - 1, by omega⟩
    rw [hm, List.getElem?_cons_succ] at h1
    have hm2 : m < k.length := by simp at hAlt; omega
    rw [List.getElem?_eq_getElem hm2] at h1
    apply ht k[m]
    · rw [← List.head?_eq_getElem?] at h1
      exact h1.symm
    · exact List.getElem_mem _

theorem index_first {c : UInt8} {k pre rest : Bytes} (hc : c ∉ k) (hpre : NoOcc (c :: k) pre) :
    index (c :: k) (pre ++ ((c :: k) ++ rest)) = some pre.length := by
  rw [index_eq_some_iff]
  refine ⟨by simp, by simp, ?_⟩
  intro j hj
  apply no_straddle hpre _ j hj
  intro d hd
  simp at hd
  subst hd
  exact hc

theorem searchWith_first {α : Type} {p : Bytes → Option α} {c : UInt8} {k pre t : Bytes}
    (hp : ∀ s, p s ≠ none → (c :: k) <+: s) (ht : ∀ d, t.head? = some d → d ∉ k) (hpre : NoOcc (c :: k) pre) :
    searchWith p (pre ++ t) = searchWith p t := by
  induction pre with
  | nil => rfl
  | cons x pre ih =>
    rw [List.cons_append, searchWith]
    have : p (x :: (pre ++ t)) = none := by
      apply Classical.byContradiction
      intro h
      exact no_straddle hpre ht 0 (by simp) (by simpa using hp _ h)
    rw [this]
    exact ih (noOcc_suffix (a := [x]) hpre)

theorem replaceRe_skip (p : Bytes → Option Bytes) (rep : Bytes → Bytes) (a t : Bytes) :
    replaceRe p rep a.length (a ++ t) = replaceRe p rep 0 t := by
  induction a with
  | nil => rfl
  | cons c a ih => simpa [replaceRe] using ih

theorem replaceRe_first {p : Bytes → Option Bytes} {rep : Bytes → Bytes} {c : UInt8} {k pre t : Bytes}
    (hp : ∀ s, p s ≠ none → (c :: k) <+: s) (ht : ∀ d, t.head? = some d → d ∉ k) (hpre : NoOcc (c :: k) pre) :
    replaceRe p rep 0 (pre ++ t) = pre ++ replaceRe p rep 0 t := by
  induction pre with
  | nil => rfl
  | cons x pre ih =>
    rw [List.cons_append, replaceRe]
    have : p (x :: (pre ++ t)) = none := by
      apply Classical.byContradiction
      intro h
      exact no_straddle hpre ht 0 (by simp) (by simpa using hp _ h)
    rw [this]
    rw [List.cons_append]
    exact congrArg _ (ih (noOcc_suffix (a := [x]) hpre))

/-- A match at the front: the replacement, then the rest. -/
theorem replaceRe_here {p : Bytes → Option Bytes} {rep : Bytes → Bytes} {m rest : Bytes} (hm : m ≠ [])
    (h : p (m ++ rest) = some rest) : replaceRe p rep 0 (m ++ rest) = rep m ++ replaceRe p rep 0 rest := by
  cases m with
  | nil => exact absurd rfl hm
  | cons c m =>
    rw [List.cons_append, replaceRe, ← List.cons_append, h]
    have h1 : (c :: m ++ rest).length - rest.length = (c :: m).length := by simp only [List.length_append]; omega
    have h2 : (m ++ rest).length - rest.length = m.length := by simp only [List.length_append]; omega
    simp only [h1, h2]
    rw [List.take_left', replaceRe_skip]
    rfl

theorem white_reSpace {c : UInt8} : White c ↔ reSpace c = true := by
  simp [White, reSpace, or_assoc]

theorem objWs_reSpace {c : UInt8} (h : objWs c = true) : reSpace c = true := by
  simp [objWs, reSpace] at *
  rcases h with ((h | h) | h) | h <;> simp [h]

theorem dropWhile_all {p : UInt8 → Bool} {w t : Bytes} (hw : ∀ c ∈ w, p c = true)
    (ht : ∀ c, t.head? = some c → p c = false) : (w ++ t).dropWhile p = t := by
  induction w with
  | nil =>
    cases t with
    | nil => rfl
    | cons c t => simp [ht c rfl]
  | cons c w ih =>
    simp only [List.cons_append, List.dropWhile, hw c (by simp)]
    exact ih (fun d hd => hw d (by simp [hd]))

theorem takeWhile_all {p : UInt8 → Bool} {w t : Bytes} (hw : ∀ c ∈ w, p c = true)
    (ht : ∀ c, t.head? = some c → p c = false) : (w ++ t).takeWhile p = w := by
  induction w with
  | nil =>
    cases t with
    | nil => rfl
    | cons c t => simp [ht c rfl]
  | cons c w ih =>
    simp only [List.cons_append, List.takeWhile, hw c (by simp)]
    rw [ih (fun d hd => hw d (by simp [hd]))]

theorem reSp1_white {w t : Bytes} (h0 : w ≠ []) (hw : ∀ c ∈ w, reSpace c = true)
    (ht : ∀ c, t.head? = some c → reSpace c = false) : reSp1 (w ++ t) = some t := by
  cases w with
  | nil => exact absurd rfl h0
  | cons c w =>
    simp only [reSp1, List.cons_append]
    rw [if_pos (hw c (by simp)), dropWhile_all (fun d hd => hw d (by simp [hd])) ht]

theorem reTok_prefix {key s : Bytes} (h : reTok key s ≠ none) : key <+: s := by
  unfold reTok at h
  apply reLit_prefix
  intro hn
  rw [hn] at h
  exact h rfl

theorem reName_prefix {key s : Bytes} (h : reName key s ≠ none) : key <+: s := by
  unfold reName at h
  apply reLit_prefix
  intro hn
  rw [hn] at h
  exact h rfl

theorem ends_tok {rest : Bytes} (h : Ends rest) : ∀ c, rest.head? = some c → tokByte c = false := by
  intro c hc
  rcases h c hc with hw | hw | hw
  · simp [tokByte, white_reSpace.1 hw]
  · subst hw; decide
  · subst hw; decide

theorem reTok_value {key w tok rest : Bytes} (hw0 : w ≠ []) (hw : ∀ c ∈ w, White c) (ht0 : tok ≠ [])
    (ht : ∀ c ∈ tok, tokByte c = true) (hr : Ends rest) : reTok key (key ++ (w ++ (tok ++ rest))) = some (tok, rest) := by
  unfold reTok
  rw [reLit_append, Option.bind_some, reSp1_white hw0 (fun c hc => white_reSpace.1 (hw c hc)), Option.bind_some,
    takeWhile_all ht (ends_tok hr), dropWhile_all ht (ends_tok hr), if_neg ht0]
  intro c hc
  cases tok with
  | nil => exact absurd rfl ht0
  | cons d tok =>
    simp at hc; subst hc
    have := ht d (by simp)
    simp [tokByte] at this
    simpa using this.1.1

/-- The value read back by both readers of the library, and by the array test. -/
theorem arraySpan_none {c : UInt8} {k pre w tok rest : Bytes} (hc : c ∉ k) (hpre : NoOcc (c :: k) pre)
    (hw : ∀ x ∈ w, x ≠ 91) (ht0 : tok ≠ []) (ht : tok.head? ≠ some 91)
    (hts : ∀ d, tok.head? = some d → objWs d = false) :
    arraySpan (pre ++ ((c :: k) ++ (w ++ (tok ++ rest)))) (c :: k) = none := by
  unfold arraySpan
  rw [index_first hc hpre, Option.bind_some]
  simp only
  generalize hs : w ++ (tok ++ rest) = t
  have hd : (pre ++ ((c :: k) ++ t)).drop (pre.length + (c :: k).length) = t := by
    rw [← List.append_assoc]
    exact List.drop_left' (by simp)
  rw [hd]
  have hd2 : (pre ++ ((c :: k) ++ t)).drop (pre.length + (c :: k).length + (t.takeWhile objWs).length)
      = t.drop (t.takeWhile objWs).length := by
    rw [← List.drop_drop, hd]
  rw [hd2]
  have hd3 : t.drop (t.takeWhile objWs).length = t.dropWhile objWs := by
    have := List.takeWhile_append_dropWhile (p := objWs) (l := t)
    conv => lhs; arg 2; rw [← this]
    exact List.drop_left
  rw [hd3]
  have key : (t.dropWhile objWs).head? ≠ some 91 := by
    subst hs
    clear hd hd2 hd3 hpre
    induction w with
    | nil =>
      cases tok with
      | nil => exact absurd rfl ht0
      | cons d tok =>
        have hd : objWs d = false := hts d rfl
        simp at ht
        simp [hd, ht]
    | cons d w ih =>
      simp only [List.cons_append, List.dropWhile]
      split
      · exact ih (fun x hx => hw x (by simp [hx]))
      · simpa using hw d (by simp)
  split
  · rename_i h
    rw [h] at key
    simp at key
  · rfl

end Pdfer.Manipulate
