import Verif.Proofs.KeyText
import Verif.Proofs.GoLib

/-! Reading and setting simple dictionary values; rotation; page ranges. -/

namespace Pdfer.Manipulate

open Pdfer.Go Pdfer.Incremental Pdfer.Spec.Manipulate

/-- A token that is read back as it is: not empty, no delimiter inside, and not an array. -/
def Token (tok : Bytes) : Prop := tok ≠ [] ∧ (∀ c ∈ tok, tokByte c = true) ∧ tok.head? ≠ some 91

theorem Token.head_ws {tok : Bytes} (h : Token tok) : ∀ d, tok.head? = some d → objWs d = false := by
  intro d hd
  have hm : d ∈ tok := by
    cases tok with
    | nil => simp at hd
    | cons e tok => simp at hd; simp [hd]
  have := h.2.1 d hm
  simp only [tokByte, Bool.and_eq_true, Bool.not_eq_true'] at this
  cases ho : objWs d with
  | false => rfl
  | true => rw [objWs_reSpace ho] at this; simp at this

theorem white_ne {w : Bytes} (hw : ∀ c ∈ w, White c) : ∀ x ∈ w, x ≠ 91 := by
  intro x hx e
  have := hw x hx
  subst e
  simp [White] at this

theorem searchTok_value {c : UInt8} {k pre w tok rest : Bytes} (hc : c ∉ k) (hpre : NoOcc (c :: k) pre) (hw0 : w ≠ [])
    (hw : ∀ x ∈ w, White x) (ht : Token tok) (hr : Ends rest) :
    searchWith (reTok (c :: k)) (pre ++ ((c :: k) ++ (w ++ (tok ++ rest)))) = some (tok, rest) := by
  rw [searchWith_first (fun s => reTok_prefix) _ hpre]
  · exact searchWith_here (reTok_value hw0 hw ht.1 ht.2.1 hr)
  · intro d hd; simp at hd; subst hd; exact hc

theorem extract_value {c : UInt8} {k pre w tok rest : Bytes} (hc : c ∉ k) (hpre : NoOcc (c :: k) pre) (hw0 : w ≠ [])
    (hw : ∀ x ∈ w, White x) (ht : Token tok) (hr : Ends rest) :
    extractDictValue (pre ++ ((c :: k) ++ (w ++ (tok ++ rest)))) (c :: k) = tok := by
  unfold extractDictValue
  rw [index_first hc hpre]
  simp only
  rw [arraySpan_none hc hpre (white_ne hw) ht.1 ht.2.2 ht.head_ws]
  simp only [simpleValue]
  rw [searchTok_value hc hpre hw0 hw ht hr]
  rfl

theorem xDict_value {c : UInt8} {k pre w tok rest : Bytes} (hc : c ∉ k) (hpre : NoOcc (c :: k) pre) (hw0 : w ≠ [])
    (hw : ∀ x ∈ w, White x) (ht : Token tok) (hr : Ends rest) :
    xDictValue (pre ++ ((c :: k) ++ (w ++ (tok ++ rest)))) (c :: k) = tok := by
  unfold xDictValue
  simp only [simpleValue]
  rw [searchTok_value hc hpre hw0 hw ht hr]

theorem extract_absent {key s : Bytes} (h : NoOcc key s) : extractDictValue s key = [] := by
  unfold extractDictValue
  rw [noOcc_iff_index.1 h]

theorem replaceRe_ends {c : UInt8} {k rep0 rest : Bytes} (hcw : ¬ (White c ∨ c = 60 ∨ c = 62)) (hr : Ends rest) :
    Ends (replaceRe (fun t => (reTok (c :: k) t).map (·.2)) (fun _ => rep0) 0 rest) := by
  cases rest with
  | nil => simpa [replaceRe] using hr
  | cons d rest =>
    have hd := hr d rfl
    have hne : c ≠ d := by intro e; subst e; exact hcw hd
    have : reTok (c :: k) (d :: rest) = none := by
      unfold reTok
      rw [reLit_ne hne]
      rfl
    simp only [replaceRe, this, Option.map_none]
    intro e he
    simp at he
    subst he
    exact hd

/-- The whole text after setting a value that was there. -/
theorem set_value {c : UInt8} {k pre w tok rest value : Bytes} (hc : c ∉ k) (hpre : NoOcc (c :: k) pre) (hw0 : w ≠ [])
    (hw : ∀ x ∈ w, White x) (ht : Token tok) (hr : Ends rest) (hv : Token value) (hcw : ¬ (White c ∨ c = 60 ∨ c = 62)) :
    setDictValue (pre ++ ((c :: k) ++ (w ++ (tok ++ rest)))) (c :: k) value =
      pre ++ ((c :: k) ++ ([32] ++ (value ++
        replaceRe (fun t => (reTok (c :: k) t).map (·.2)) (fun _ => (c :: k) ++ [32] ++ value) 0 rest))) := by
  have hrep : replaceRe (fun t => (reTok (c :: k) t).map (·.2)) (fun _ => (c :: k) ++ b!" " ++ value) 0
      (pre ++ ((c :: k) ++ (w ++ (tok ++ rest)))) =
      pre ++ ((c :: k) ++ ([32] ++ (value ++
        replaceRe (fun t => (reTok (c :: k) t).map (·.2)) (fun _ => (c :: k) ++ [32] ++ value) 0 rest))) := by
    rw [replaceRe_first (c := c) (k := k) _ _ hpre]
    · congr 1
      have : (c :: k) ++ (w ++ (tok ++ rest)) = ((c :: k) ++ w ++ tok) ++ rest := by simp
      rw [this, replaceRe_here (by simp)]
      · simp only [List.append_assoc]
      · have h2 : ((c :: k) ++ w ++ tok) ++ rest = (c :: k) ++ (w ++ (tok ++ rest)) := by simp
        rw [h2, reTok_value hw0 hw ht.1 ht.2.1 hr]
        rfl
    · intro s hs
      apply reTok_prefix
      intro hn
      rw [hn] at hs
      exact hs rfl
    · intro d hd; simp at hd; subst hd; exact hc
  unfold setDictValue
  rw [extract_value hc hpre hw0 hw ht hr, if_neg ht.1]
  simp only [hrep]
  rw [extract_value hc hpre (by simp) (by intro x hx; simp at hx; subst hx; simp [White]) hv
    (replaceRe_ends hcw hr), searchTok_value hc hpre hw0 hw ht hr]
  simp

theorem lastIndex_some {pat s : Bytes} {i : Nat} (h : lastIndex pat s = some i) : pat <+: s.drop i := by
  induction s generalizing i with
  | nil =>
    simp only [lastIndex] at h
    split at h
    · rename_i hp; subst hp; simp
    · simp at h
  | cons c s ih =>
    simp only [lastIndex] at h
    cases hl : lastIndex pat s with
    | some j =>
      rw [hl] at h
      simp at h
      subst h
      simpa using ih hl
    | none =>
      rw [hl] at h
      simp only at h
      split at h
      · rename_i hp
        simp at h
        subst h
        simpa using hp
      · simp at h

theorem lastIndex_none {pat s : Bytes} (h : lastIndex pat s = none) : NoOcc pat s := by
  induction s with
  | nil =>
    simp only [lastIndex] at h
    split at h
    · simp at h
    · rename_i hp; exact noOcc_nil hp
  | cons c s ih =>
    simp only [lastIndex] at h
    cases hl : lastIndex pat s with
    | some j => rw [hl] at h; simp at h
    | none =>
      rw [hl] at h
      simp only at h
      split at h
      · simp at h
      · rename_i hp
        intro j hj
        cases j with
        | zero => exact hp (by simpa using hj)
        | succ j => exact ih hl j (by simpa using hj)

/-- A key that was not there is added before the last `>>`. -/
theorem set_absent {key s value : Bytes} (h : NoOcc key s) (hg : b!">>" <:+: s) :
    ∃ a b, s = a ++ b ∧ setDictValue s key value = a ++ key ++ b!" " ++ value ++ b!" " ++ b := by
  unfold setDictValue
  rw [extract_absent h, if_pos rfl]
  cases hl : lastIndex b!">>" s with
  | none => exact absurd hg (noOcc_iff_infix.1 (lastIndex_none hl))
  | some i => exact ⟨s.take i, s.drop i, by simp, rfl⟩

theorem itoa_decimal (r : Int) : itoa r = decimal r := by
  unfold decimal
  cases r with
  | ofNat n =>
    rw [if_neg (by simp)]
    rfl
  | negSucc n =>
    rw [if_pos (by omega)]
    rfl

theorem atoi_itoa (r : Int) (h1 : -9223372036854775808 ≤ r) (h2 : r ≤ 9223372036854775807) : atoi (itoa r) = some r := by
  cases r with
  | ofNat n => exact atoi_natDec n (by simp at h2; omega)
  | negSucc n =>
    have hn : n + 1 ≤ 9223372036854775808 := by omega
    simp only [itoa, atoi, atoiMag]
    rw [if_neg (natDec_ne_nil _), if_pos (by rw [List.all_eq_true]; exact natDec_digits _), digitsVal_natDec, if_pos hn]
    rfl

theorem itoa_token (r : Int) : Token (itoa r) := by
  have hd : ∀ n, Token (natDec n) := by
    intro n
    refine ⟨natDec_ne_nil n, ?_, ?_⟩
    · intro c hc
      have := natDec_digits n c hc
      have h2 := isDigit_not_reSpace this
      rw [isDigit_iff] at this
      simp only [tokByte, h2]
      have e1 : c ≠ 60 := by intro e; subst e; revert this; decide
      have e2 : c ≠ 62 := by intro e; subst e; revert this; decide
      simp [e1, e2]
    · intro h
      have := natDec_head n [] 91 (by simpa using h)
      exact absurd this (by decide)
  cases r with
  | ofNat n => exact hd n
  | negSucc n =>
    refine ⟨by simp [itoa], ?_, by simp [itoa]⟩
    intro c hc
    simp only [itoa, List.mem_cons] at hc
    rcases hc with hc | hc
    · subst hc; decide
    · exact (hd (n + 1)).2.1 c hc

/-- The rotation both readers of the library report. -/
theorem rotation_read {s : Bytes} {r : Int} (h : RotationIs s r) (h1 : -9223372036854775808 ≤ r)
    (h2 : r ≤ 9223372036854775807) :
    (atoi (extractDictValue s b!"/Rotate")).getD 0 = r ∧ (atoi (xDictValue s b!"/Rotate")).getD 0 = r := by
  cases h with
  | absent _ h =>
    rw [extract_absent (noOcc_iff_infix.2 h)]
    refine ⟨rfl, ?_⟩
    unfold xDictValue simpleValue
    rw [searchWith_none (fun s => reTok_prefix) (noOcc_iff_infix.2 h),
      searchWith_none (fun s => reName_prefix) (noOcc_iff_infix.2 h),
      searchWith_none (key := b!"/Rotate") _ (noOcc_iff_infix.2 h)]
    · rfl
    · intro s hs
      apply reLit_prefix
      intro hn
      unfold reArr at hs
      rw [hn] at hs
      exact hs rfl
  | value pre w rest r hp hw0 hw hr =>
    have e : pre ++ b!"/Rotate" ++ w ++ decimal r ++ rest =
        pre ++ ((47 :: b!"Rotate") ++ (w ++ (itoa r ++ rest))) := by
      rw [itoa_decimal]; simp
    rw [e]
    have hx := extract_value (c := 47) (k := b!"Rotate") (by decide) (noOcc_iff_infix.2 hp) hw0 hw (itoa_token r) hr
    have hy := xDict_value (c := 47) (k := b!"Rotate") (by decide) (noOcc_iff_infix.2 hp) hw0 hw (itoa_token r) hr
    exact ⟨by rw [hx, atoi_itoa r h1 h2]; rfl, by rw [hy, atoi_itoa r h1 h2]; rfl⟩

theorem set_rotation {s : Bytes} {r v : Int} (h : RotationIs s r) (hg : ¬ b!"/Rotate" <:+: s → b!">>" <:+: s) :
    RotationIs (setDictValue s b!"/Rotate" (itoa v)) v ∧ b!"/Rotate" <:+: setDictValue s b!"/Rotate" (itoa v) := by
  have hsp : ∀ c ∈ ([32] : Bytes), White c := by intro c hc; simp at hc; subst hc; simp [White]
  cases h with
  | absent _ h =>
    obtain ⟨a, b, e, hs⟩ := set_absent (value := itoa v) (noOcc_iff_infix.2 h) (hg h)
    rw [hs, itoa_decimal]
    have : a ++ b!"/Rotate" ++ b!" " ++ decimal v ++ b!" " ++ b = a ++ b!"/Rotate" ++ [32] ++ decimal v ++ (32 :: b) := by
      simp
    rw [this]
    refine ⟨RotationIs.value a [32] (32 :: b) v ?_ (by simp) hsp ?_, a, [32] ++ decimal v ++ (32 :: b), by simp⟩
    · intro hi
      exact h (e ▸ hi.trans (List.infix_append' [] a b))
    · intro c hc; simp at hc; subst hc; left; simp [White]
  | value pre w rest r hp hw0 hw hr =>
    have e : pre ++ b!"/Rotate" ++ w ++ decimal r ++ rest =
        pre ++ ((47 :: b!"Rotate") ++ (w ++ (itoa r ++ rest))) := by
      rw [itoa_decimal]; simp
    have hcw : ¬ (White 47 ∨ (47 : UInt8) = 60 ∨ (47 : UInt8) = 62) := by simp [White]
    have := set_value (c := 47) (k := b!"Rotate") (value := itoa v) (by decide) (noOcc_iff_infix.2 hp) hw0 hw
      (itoa_token r) hr (itoa_token v) hcw
    rw [e]
    rw [this]
    have e2 : ∀ t, pre ++ ((47 :: b!"Rotate") ++ ([32] ++ (itoa v ++ t))) = pre ++ b!"/Rotate" ++ [32] ++ decimal v ++ t := by
      intro t; rw [itoa_decimal]; simp
    rw [e2]
    exact ⟨RotationIs.value pre [32] _ v hp (by simp) hsp (replaceRe_ends hcw hr), pre, _, by
      rw [List.append_assoc _ [32], List.append_assoc _ ([32] ++ _)]⟩

/-- Rotating: the new rotation, modulo a full turn. -/
theorem rotateText_spec {s : Bytes} {r angle : Int} (h : RotationIs s r)
    (hg : ¬ b!"/Rotate" <:+: s → b!">>" <:+: s) (h1 : -9223372036854775808 ≤ r) (h2 : r ≤ 9223372036854775807) :
    RotationIs (rotateText s angle) ((r + angle) % 360) ∧ b!"/Rotate" <:+: rotateText s angle := by
  unfold rotateText
  rw [(rotation_read h h1 h2).1]
  simp only
  have e : (if (r + angle).tmod 360 < 0 then (r + angle).tmod 360 + 360 else (r + angle).tmod 360) = (r + angle) % 360 := by
    rw [Int.tmod_eq_emod]
    split <;> split <;> omega
  rw [e]
  exact set_rotation h hg

theorem rotation_has {s : Bytes} {r : Int} (h : RotationIs s r) (hi : b!"/Rotate" <:+: s) :
    ∃ pre w rest, s = pre ++ b!"/Rotate" ++ w ++ decimal r ++ rest := by
  cases h with
  | absent _ h => exact absurd hi h
  | value pre w rest r hp hw0 hw hr => exact ⟨pre, w, rest, rfl⟩

end Pdfer.Manipulate
