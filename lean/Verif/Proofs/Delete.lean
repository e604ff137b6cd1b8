import Verif.Proofs.PageTree

/-! Deleting and inserting pages in the text of a page tree node. -/

namespace Pdfer.Manipulate

open Pdfer.Go Pdfer.Incremental Pdfer.Spec.Manipulate

/-! ### Which references a deletion removes -/

theorem searchWith_isSome_of_drop {α : Type} {p : Bytes → Option α} {s : Bytes} (j : Nat)
    (h : p (s.drop j) ≠ none) : searchWith p s ≠ none := by
  induction s generalizing j with
  | nil => simpa [searchWith] using h
  | cons c s ih =>
    rw [searchWith]
    cases hx : p (c :: s) with
    | some a => simp
    | none =>
      cases j with
      | zero => simp at h; exact absurd hx h
      | succ j => exact ih j (by simpa using h)

theorem reLit_some {l s t : Bytes} (h : reLit l s = some t) : s = l ++ t := by
  obtain ⟨u, rfl⟩ := reLit_prefix (l := l) (s := s) (by simp [h])
  rw [reLit_append] at h
  simp at h
  rw [h]

theorem itoa_nat (n : Nat) : itoa (n : Int) = natDec n := rfl

theorem reRefTo_self (n : Nat) (rest : Bytes) : reRefTo n (refText n ++ rest) ≠ none := by
  have e : refText n ++ rest = natDec n ++ (32 :: (natDec 0 ++ (32 :: (b!"R" ++ rest)))) := by
    simp [refText, show natDec 0 = [48] from rfl]
  unfold reRefTo
  rw [e, itoa_nat, reLit_append, Option.bind_some,
    reSp1_one (fun c hc => isDigit_not_reSpace (natDec_head 0 _ c hc)), Option.bind_some,
    reNum_natDec (by intro c hc; simp at hc; subst hc; decide), Option.bind_some,
    reSp1_one (by intro c hc; simp at hc; subst hc; decide), Option.bind_some, reLit_append]
  simp

theorem natDec_cons (n : Nat) : ∃ d ds, natDec n = d :: ds ∧ isDigit d = true := by
  cases h : natDec n with
  | nil => exact absurd h (natDec_ne_nil n)
  | cons d ds => exact ⟨d, ds, rfl, natDec_digits n d (by simp [h])⟩

theorem reRefTo_head {n : Nat} {c : UInt8} {t : Bytes} (hc : isDigit c = false) : reRefTo n (c :: t) = none := by
  obtain ⟨d, ds, e, hd⟩ := natDec_cons n
  unfold reRefTo
  rw [itoa_nat, e, reLit_ne (by intro h; subst h; rw [hc] at hd; simp at hd)]
  rfl

theorem reRefTo_digits {n : Nat} {d : Bytes} (hd : ∀ c ∈ d, isDigit c = true)
    (h : reRefTo n (d ++ b!" 0 R") ≠ none) : d = natDec n := by
  unfold reRefTo at h
  cases hl : reLit (itoa n) (d ++ b!" 0 R") with
  | none => rw [hl] at h; simp at h
  | some t =>
    rw [hl, Option.bind_some] at h
    have e := reLit_some hl
    rw [itoa_nat] at e
    rcases List.append_eq_append_iff.1 e with ⟨u, hu, ht⟩ | ⟨u, hu, ht⟩
    · -- `d` is a prefix of the number
      cases u with
      | nil => rw [List.append_nil] at hu; exact hu.symm
      | cons x u =>
        have hx : x = 32 := by simpa using (congrArg List.head? ht).symm
        have : isDigit x = true := natDec_digits n x (by rw [hu]; simp)
        rw [hx] at this; simp [isDigit] at this
    · cases u with
      | nil => simpa using hu
      | cons x u =>
        have : isDigit x = true := hd x (by rw [hu]; simp)
        rw [ht, List.cons_append] at h
        simp [reSp1, isDigit_not_reSpace this] at h

theorem reRefTo_short (n : Nat) : ∀ t ∈ [b!" 0 R", b!"0 R", b!" R", b!"R", b!""], reRefTo n t = none := by
  intro t ht
  have h1 : reRefTo n b!"0 R" = none := by
    unfold reRefTo
    cases hl : reLit (itoa n) b!"0 R" with
    | none => rfl
    | some t =>
      rw [Option.bind_some]
      have e := reLit_some hl
      rw [itoa_nat] at e
      obtain ⟨d, ds, en, hd⟩ := natDec_cons n
      rw [en, List.cons_append] at e
      injection e with e1 e2
      cases ds with
      | nil => simp at e2; rw [← e2]; decide
      | cons x ds =>
        simp at e2
        have : isDigit x = true := natDec_digits n x (by rw [en]; simp)
        rw [← e2.1] at this
        simp [isDigit] at this
  have h2 : reRefTo n [] = none := by
    obtain ⟨d, ds, en, hd⟩ := natDec_cons n
    unfold reRefTo
    rw [itoa_nat, en]
    simp [reLit]
  simp only [List.mem_cons, List.not_mem_nil, or_false] at ht
  rcases ht with rfl | rfl | rfl | rfl | rfl
  · exact reRefTo_head (by decide)
  · exact h1
  · exact reRefTo_head (by decide)
  · exact reRefTo_head (by decide)
  · exact h2

/-- The expression of a deletion matches a reference exactly when the decimal digits of the deleted object's number are
the last digits of the referenced number. -/
theorem reRefTo_iff (n m : Nat) : (searchWith (reRefTo n) (refText m)).isNone = true ↔ ¬ natDec n <:+ natDec m := by
  constructor
  · intro h ⟨a, ha⟩
    have h' : searchWith (reRefTo n) (refText m) ≠ none := by
      apply searchWith_isSome_of_drop a.length
      have e : refText m = a ++ (refText n ++ []) := by simp [refText, ← ha]
      rw [e, List.drop_left]
      exact reRefTo_self n []
    exact h' (by simpa using h)
  · intro h
    rw [Option.isNone_iff_eq_none]
    apply searchWith_all_none
    intro j
    apply Classical.byContradiction
    intro hne
    by_cases hj : j ≤ (natDec m).length
    · apply h
      have e : (refText m).drop j = (natDec m).drop j ++ b!" 0 R" := by
        unfold refText; rw [List.drop_append_of_le_length hj]
      rw [e] at hne
      have := reRefTo_digits (fun c hc => natDec_digits m c (List.mem_of_mem_drop hc)) hne
      exact ⟨(natDec m).take j, by rw [← this, List.take_append_drop]⟩
    · apply hne
      apply reRefTo_short
      have e : (refText m).drop j = b!" 0 R".drop (j - (natDec m).length) := by
        unfold refText
        rw [List.drop_append, List.drop_of_length_le (by omega), List.nil_append]
      rw [e]
      generalize j - (natDec m).length = i
      match i with
      | 0 | 1 | 2 | 3 => simp
      | i + 4 => simp

theorem keptKids_refs (n : Nat) (nums : List Nat) :
    keptKids n (nums.map refText) = (nums.filter fun m => decide (¬ natDec n <:+ natDec m)).map refText := by
  unfold keptKids
  rw [List.filter_map]
  congr 1
  apply List.filter_congr
  intro m _
  simp only [Function.comp]
  have := reRefTo_iff n m
  by_cases h : natDec n <:+ natDec m
  · simp only [h, not_true_eq_false, iff_false, decide_false] at this ⊢
    exact Bool.not_eq_true _ ▸ this
  · simp only [h, not_false_eq_true, iff_true, decide_true] at this ⊢
    exact this

/-! ### The text of the node -/

theorem noOcc_app {c : UInt8} {k a t : Bytes} (ha : NoOcc (c :: k) a) (ht : NoOcc (c :: k) t)
    (hh : ∀ d, t.head? = some d → d ∉ k) : NoOcc (c :: k) (a ++ t) := by
  intro j
  by_cases h : j < a.length
  · exact no_straddle ha hh j h
  · intro hp
    apply ht (j - a.length)
    rwa [List.drop_append, List.drop_of_length_le (by omega), List.nil_append] at hp

theorem replaceRe_none {p : Bytes → Option Bytes} {rep : Bytes → Bytes} {c : UInt8} {k s : Bytes}
    (hp : ∀ s, p s ≠ none → (c :: k) <+: s) (h : NoOcc (c :: k) s) : replaceRe p rep 0 s = s := by
  have := replaceRe_first (rep := rep) hp (t := []) (by simp) h
  simpa [replaceRe] using this

theorem joinSp_intersperse (l : List Bytes) : Writer.joinSp l = (l.intersperse b!" ").flatten := by
  match l with
  | [] => rfl
  | [a] => simp [Writer.joinSp]
  | a :: b :: l =>
    rw [Writer.joinSp, joinSp_intersperse (b :: l)]
    · simp
    · simp

theorem kidsText_eq (nums : List Nat) : kidsText (nums.map refText) = kidsArray [] nums b!" " := by
  simp [kidsText, kidsArray, joinSp_intersperse]

/-- An expression that starts with the only `/Kids` and does not match there matches nowhere. -/
theorem search_only_kids {α : Type} {p : Bytes → Option α} {pre b rest : Bytes} (hp : ∀ s, p s ≠ none → b!"/Kids" <+: s)
    (hpre : NoOcc b!"/Kids" pre) (hrest : NoOcc b!"/Kids" rest) (hb2 : 47 ∉ b)
    (h0 : p (b!"/Kids" ++ (91 :: (b ++ (93 :: rest)))) = none) :
    searchWith p (pre ++ (b!"/Kids" ++ (91 :: (b ++ (93 :: rest))))) = none := by
  have hno : NoOcc b!"/Kids" (91 :: (b ++ (93 :: rest))) := by
    have h1 : NoOcc b!"/Kids" (91 :: b) := noOcc_of_head (by
      intro h; rcases List.mem_cons.1 h with h | h
      · simp at h
      · exact hb2 h)
    have := noOcc_mid (c := 93) (by decide) h1 hrest
    simpa using this
  rw [searchWith_first (c := 47) (k := b!"Kids") hp (by intro d hd; simp at hd; subst hd; decide) hpre]
  have e : (b!"/Kids" ++ (91 :: (b ++ (93 :: rest)))) = 47 :: (b!"Kids" ++ (91 :: (b ++ (93 :: rest)))) := rfl
  rw [e, searchWith, ← e, h0]
  simp only
  apply searchWith_none hp
  exact noOcc_app (noOcc_of_head (by decide)) hno (by intro d hd; simp at hd; subst hd; decide)

/-- Replacing a compact kids array. -/
theorem set_kids {pre b rest value : Bytes} (hpre : NoOcc b!"/Kids" pre) (hrest : NoOcc b!"/Kids" rest)
    (hb : ∀ x ∈ b, x ≠ 91 ∧ x ≠ 93) (hb2 : 47 ∉ b) :
    setDictValue (pre ++ (b!"/Kids" ++ (91 :: (b ++ (93 :: rest))))) b!"/Kids" value =
      pre ++ (b!"/Kids" ++ (value ++ (32 :: rest))) := by
  have hx := extract_array (c := 47) (k := b!"Kids") (w := []) (rest := rest) (by decide) hpre (by simp) hb
  have hsp := arraySpan_some (c := 47) (k := b!"Kids") (w := []) (rest := rest) (by decide) hpre (by simp) hb
  simp only [List.nil_append, List.length_nil, Nat.add_zero] at hx hsp
  have hlit : ∀ (p : Bytes → Option (Bytes × Bytes)), (∀ s, p s ≠ none → b!"/Kids" <+: s) →
      p (b!"/Kids" ++ (91 :: (b ++ (93 :: rest)))) = none →
      searchWith p (pre ++ (b!"/Kids" ++ (91 :: (b ++ (93 :: rest))))) = none :=
    fun p hp h0 => search_only_kids hp hpre hrest hb2 h0
  have htok := hlit (reTok b!"/Kids") (fun s => reTok_prefix) (by
    unfold reTok; rw [reLit_append, Option.bind_some]; rfl)
  have hname := hlit (reName b!"/Kids") (fun s => reName_prefix) (by
    unfold reName; rw [reLit_append, Option.bind_some, reLit_ne (by decide)]; rfl)
  unfold setDictValue
  simp only
  rw [hx, if_neg (by simp), htok, hname]
  simp only [Option.isSome_none, Bool.false_and, Bool.false_eq_true, if_false]
  rw [hsp]
  simp only
  have hd : (pre ++ (b!"/Kids" ++ (91 :: (b ++ (93 :: rest))))).drop (pre.length + (b!"/Kids").length) =
      91 :: (b ++ (93 :: rest)) := by
    rw [← List.append_assoc]
    exact List.drop_left' (by simp)
  rw [hd, if_neg (by simp [objWs])]
  have hk : (pre ++ (b!"/Kids" ++ (91 :: (b ++ (93 :: rest))))).take pre.length = pre := List.take_left
  have hend : (pre ++ (b!"/Kids" ++ (91 :: (b ++ (93 :: rest))))).drop (pre.length + (b!"/Kids").length + (b.length + 2)) =
      rest := by
    rw [← List.drop_drop, hd]
    rw [show b.length + 2 = (b.length + 1) + 1 from rfl, List.drop_succ_cons]
    rw [show (b ++ 93 :: rest : Bytes) = (b ++ [93]) ++ rest by simp]
    exact List.drop_left' (by simp)
  rw [hk, hend]
  simp

theorem body_noslash (w1 : Bytes) (nums : List Nat) (w2 : Bytes) (h1 : ∀ c ∈ w1, White c) (h2 : ∀ c ∈ w2, White c) :
    47 ∉ w1 ++ (refsText nums ++ w2) := by
  intro hc
  simp only [List.mem_append] at hc
  rcases hc with hc | hc | hc
  · have := h1 _ hc; simp [White] at this
  · rcases refsText_chars nums _ hc with h | h | h
    · simp [isDigit] at h
    · simp at h
    · simp at h
  · have := h2 _ hc; simp [White] at this

theorem kids_noOcc (k : Bytes) (w1 : Bytes) (nums : List Nat) (w2 : Bytes) (h1 : ∀ c ∈ w1, White c)
    (h2 : ∀ c ∈ w2, White c) : NoOcc (47 :: k) (kidsArray w1 nums w2) := by
  apply noOcc_of_head
  rw [kidsArray_eq]
  intro h
  rcases List.mem_cons.1 h with h | h
  · simp at h
  · rcases List.mem_append.1 h with h | h
    · exact body_noslash w1 nums w2 h1 h2 h
    · simp at h

/-- What replaces the counts. -/
def countRe (t : Bytes) : Option Bytes :=
  (reLit b!"/Count" t).bind fun s => (reSp1 s).bind fun s => (reNum s).map (·.2)

theorem countRe_prefix {s : Bytes} (h : countRe s ≠ none) : b!"/Count" <+: s := by
  apply reLit_prefix
  intro hn
  unfold countRe at h
  rw [hn] at h
  exact h rfl

theorem replace_count {pre w rest : Bytes} {c n : Nat} (hpre : NoOcc b!"/Count" pre) (hrest : NoOcc b!"/Count" rest)
    (hw0 : w ≠ []) (hw : ∀ x ∈ w, White x) (hr : ∀ d, rest.head? = some d → isDigit d = false) :
    replaceCount (pre ++ (b!"/Count" ++ (w ++ (natDec c ++ rest)))) n =
      pre ++ (b!"/Count" ++ ([32] ++ (natDec n ++ rest))) := by
  unfold replaceCount
  change replaceRe countRe _ 0 _ = _
  rw [replaceRe_first (c := 47) (k := b!"Count") (fun s => countRe_prefix)
    (by intro d hd; simp at hd; subst hd; decide) hpre]
  have e : b!"/Count" ++ (w ++ (natDec c ++ rest)) = (b!"/Count" ++ (w ++ natDec c)) ++ rest := by simp
  rw [e, replaceRe_here (by simp)]
  · rw [replaceRe_none (c := 47) (k := b!"Count") (fun s => countRe_prefix) hrest]
    simp
  · rw [← e]
    unfold countRe
    rw [reLit_append, Option.bind_some, reSp1_white hw0 (fun x hx => white_reSpace.1 (hw x hx)), Option.bind_some,
      reNum_natDec hr]
    · rfl
    · intro d hd
      exact isDigit_not_reSpace (natDec_head c rest d hd)

theorem ends_not_digit {rest : Bytes} (h : Ends rest) : ∀ d, rest.head? = some d → isDigit d = false := by
  intro d hd
  rcases h d hd with h | h | h
  · exact white_not_digit h
  · subst h; decide
  · subst h; decide

theorem bump_count {pre rest : Bytes} {c : Nat} {delta : Int} (hpre : NoOcc b!"/Count" pre) (hrest : NoOcc b!"/Count" rest)
    (hr : Ends rest) (hc : c ≤ 9223372036854775807) :
    bumpCount (pre ++ (b!"/Count" ++ ([32] ++ (natDec c ++ rest)))) delta =
      pre ++ (b!"/Count" ++ ([32] ++ (itoa (if (c : Int) + delta < 0 then 0 else c + delta) ++ rest))) := by
  have hsp : ∀ c ∈ ([32] : Bytes), White c := by intro c hc; simp at hc; subst hc; simp [White]
  have hx : extractDictValue (pre ++ (b!"/Count" ++ ([32] ++ (natDec c ++ rest)))) b!"/Count" = natDec c :=
    extract_value (c := 47) (k := b!"Count") (by decide) hpre (by simp) hsp (itoa_token c) hr
  unfold bumpCount
  rw [hx, atoi_natDec c hc]
  simp only [Option.getD_some]
  have := set_value (c := 47) (k := b!"Count") (w := [32]) (tok := natDec c)
    (value := itoa (if (c : Int) + delta < 0 then 0 else c + delta)) (by decide) hpre (by simp) hsp (itoa_token c) hr
    (itoa_token _) (by simp [White])
  change setDictValue _ _ (itoa (if (c : Int) + delta < 0 then 0 else c + delta)) = _
  rw [this, replaceRe_none (c := 47) (k := b!"Count") (fun s h => reTok_prefix (by
    intro hn; rw [hn] at h; exact h rfl)) hrest]

/-- A compact kids array is found. -/
theorem compact_kids {pre w1 w2 rest : Bytes} {nums : List Nat} (h1 : ∀ c ∈ w1, White c) (h2 : ∀ c ∈ w2, White c)
    (hpre : NoOcc b!"/Kids" pre) :
    extractDictValue (pre ++ (b!"/Kids" ++ (kidsArray w1 nums w2 ++ rest))) b!"/Kids" = kidsArray w1 nums w2 := by
  have := extract_array (c := 47) (k := b!"Kids") (w := []) (rest := rest) (by decide) hpre (by simp)
    (body_chars w1 nums w2 h1 h2)
  rw [kidsArray_eq]
  simpa using this

theorem set_kids' {pre w1 w2 rest value : Bytes} {nums : List Nat} (h1 : ∀ c ∈ w1, White c) (h2 : ∀ c ∈ w2, White c)
    (hpre : NoOcc b!"/Kids" pre) (hrest : NoOcc b!"/Kids" rest) :
    setDictValue (pre ++ (b!"/Kids" ++ (kidsArray w1 nums w2 ++ rest))) b!"/Kids" value =
      pre ++ (b!"/Kids" ++ (value ++ (32 :: rest))) := by
  have := set_kids (value := value) hpre hrest (body_chars w1 nums w2 h1 h2) (body_noslash w1 nums w2 h1 h2)
  rw [kidsArray_eq]
  simpa using this

/-- The kids a deletion leaves. -/
theorem delete_core {s : Bytes} {n : Nat} {nums : List Nat} {w1 w2 : Bytes} (h1 : ∀ c ∈ w1, White c)
    (h2 : ∀ c ∈ w2, White c) (hx : extractDictValue s b!"/Kids" = kidsArray w1 nums w2) :
    deleteText s n =
      let left := nums.filter fun m => decide (¬ natDec n <:+ natDec m)
      if left.length = nums.length ∨ left = [] then none
      else some (bumpCount (replaceCount (setDictValue s b!"/Kids" (kidsArray [] left b!" ")) left.length) (-1)) := by
  unfold deleteText
  simp only
  rw [hx, if_neg (by rw [kidsArray_eq]; simp), parse_kids w1 nums w2 h1 h2, keptKids_refs, kidsText_eq]
  simp only [List.length_map]
  generalize nums.filter (fun m => decide (¬ natDec n <:+ natDec m)) = left
  by_cases e : nums.length = left.length
  · rw [if_pos e, if_pos (Or.inl e.symm)]
  · rw [if_neg e]
    cases left with
    | nil => rw [if_pos (by simp), if_pos (Or.inr rfl)]
    | cons x l => rw [if_neg (by simp), if_neg (by simp; intro h; exact e (by simp [h]))]

theorem sp_white : ∀ c ∈ (b!" " : Bytes), White c := by intro c hc; simp at hc; subst hc; simp [White]

theorem nil_white : ∀ c ∈ ([] : Bytes), White c := by simp

theorem delete_kids_first {a b c w1 w2 wc : Bytes} {nums : List Nat} {n cnt : Nat} (h1 : ∀ x ∈ w1, White x)
    (h2 : ∀ x ∈ w2, White x) (hwc0 : wc ≠ []) (hwc : ∀ x ∈ wc, White x) (hc : Ends c)
    (hno : ∀ t ∈ [a, b, c], NoOcc b!"/Kids" t ∧ NoOcc b!"/Count" t)
    (hlen : nums.length ≤ 9223372036854775807) :
    deleteText (a ++ (b!"/Kids" ++ (kidsArray w1 nums w2 ++ (b ++ (b!"/Count" ++ (wc ++ (natDec cnt ++ c))))))) n =
      let left := nums.filter fun m => decide (¬ natDec n <:+ natDec m)
      if left.length = nums.length ∨ left = [] then none
      else some (a ++ (b!"/Kids" ++ (kidsArray [] left b!" " ++ (32 :: (b ++ (b!"/Count" ++ ([32] ++
        (natDec (left.length - 1) ++ c)))))))) := by
  obtain ⟨hak, hac⟩ := hno a (by simp)
  obtain ⟨hbk, hbc⟩ := hno b (by simp)
  obtain ⟨hck, hcc⟩ := hno c (by simp)
  have hcd := ends_not_digit hc
  rw [delete_core h1 h2 (compact_kids h1 h2 hak)]
  simp only
  generalize hl : nums.filter (fun m => decide (¬ natDec n <:+ natDec m)) = left
  have hll : left.length ≤ nums.length := by rw [← hl]; exact List.length_filter_le _ _
  by_cases e : left.length = nums.length ∨ left = []
  · rw [if_pos e, if_pos e]
  · rw [if_neg e, if_neg e]
    have hrest : NoOcc b!"/Kids" (b ++ (b!"/Count" ++ (wc ++ (natDec cnt ++ c)))) := by
      refine noOcc_app hbk ?_ (by intro d hd; simp at hd; subst hd; decide)
      refine noOcc_app (noOcc_iff_index.2 (by decide)) ?_ ?_
      · have hw : NoOcc b!"/Kids" (wc ++ natDec cnt) := noOcc_of_head (by
          intro h
          rcases List.mem_append.1 h with h | h
          · have := hwc _ h; simp [White] at this
          · exact not_mem_natDec (by decide) cnt h)
        have := noOcc_app hw hck (by
          intro d hd
          rcases hc d hd with h | h | h
          · rcases h with h | h | h | h | h <;> subst h <;> decide
          · subst h; decide
          · subst h; decide)
        simpa using this
      · intro d hd
        cases wc with
        | nil => exact absurd rfl hwc0
        | cons x wc =>
          simp at hd; subst hd
          rcases hwc x (by simp) with h | h | h | h | h <;> subst h <;> decide
    rw [set_kids' h1 h2 hak hrest]
    have hp : NoOcc b!"/Count" (a ++ (b!"/Kids" ++ (kidsArray [] left b!" " ++ (32 :: b)))) := by
      refine noOcc_app hac ?_ (by intro d hd; simp at hd; subst hd; decide)
      refine noOcc_app (noOcc_iff_index.2 (by decide)) ?_ (by intro d hd; rw [kidsArray_eq] at hd; simp at hd; subst hd; decide)
      exact noOcc_mid (by decide) (kids_noOcc _ _ _ _ nil_white sp_white) hbc
    have e1 : ∀ x : Bytes, a ++ (b!"/Kids" ++ (kidsArray [] left b!" " ++ (32 :: (b ++ x)))) =
        (a ++ (b!"/Kids" ++ (kidsArray [] left b!" " ++ (32 :: b)))) ++ x := by intro x; simp
    rw [e1, e1, replace_count hp hcc hwc0 hwc hcd, bump_count hp hcc hc (by omega)]
    have hpos : 1 ≤ left.length := by
      cases left with
      | nil => exact absurd (Or.inr rfl) e
      | cons x l => simp
    rw [if_neg (by omega)]
    have : itoa ((left.length : Int) + -1) = natDec (left.length - 1) := by
      rw [show (left.length : Int) + -1 = ((left.length - 1 : Nat) : Int) by omega]
      rfl
    rw [this]

theorem delete_count_first {a b c w1 w2 wc : Bytes} {nums : List Nat} {n cnt : Nat} (h1 : ∀ x ∈ w1, White x)
    (h2 : ∀ x ∈ w2, White x) (hwc0 : wc ≠ []) (hwc : ∀ x ∈ wc, White x) (hb : Ends b) (hb0 : b ≠ [])
    (hno : ∀ t ∈ [a, b, c], NoOcc b!"/Kids" t ∧ NoOcc b!"/Count" t)
    (hlen : nums.length ≤ 9223372036854775807) :
    deleteText (a ++ (b!"/Count" ++ (wc ++ (natDec cnt ++ (b ++ (b!"/Kids" ++ (kidsArray w1 nums w2 ++ c))))))) n =
      let left := nums.filter fun m => decide (¬ natDec n <:+ natDec m)
      if left.length = nums.length ∨ left = [] then none
      else some (a ++ (b!"/Count" ++ ([32] ++ (natDec (left.length - 1) ++ (b ++ (b!"/Kids" ++
        (kidsArray [] left b!" " ++ (32 :: c)))))))) := by
  obtain ⟨hak, hac⟩ := hno a (by simp)
  obtain ⟨hbk, hbc⟩ := hno b (by simp)
  obtain ⟨hck, hcc⟩ := hno c (by simp)
  have hends : ∀ t : Bytes, Ends (b ++ t) := by
    intro t d hd
    cases b with
    | nil => exact absurd rfl hb0
    | cons x b => exact hb d (by simpa using hd)
  have hp : NoOcc b!"/Kids" (a ++ (b!"/Count" ++ (wc ++ (natDec cnt ++ b)))) := by
    refine noOcc_app hak ?_ (by intro d hd; simp at hd; subst hd; decide)
    refine noOcc_app (noOcc_iff_index.2 (by decide)) ?_ ?_
    · have hw : NoOcc b!"/Kids" (wc ++ natDec cnt) := noOcc_of_head (by
        intro h
        rcases List.mem_append.1 h with h | h
        · have := hwc _ h; simp [White] at this
        · exact not_mem_natDec (by decide) cnt h)
      have := noOcc_app hw hbk (by
        intro d hd
        rcases hb d hd with h | h | h
        · rcases h with h | h | h | h | h <;> subst h <;> decide
        · subst h; decide
        · subst h; decide)
      simpa using this
    · intro d hd
      cases wc with
      | nil => exact absurd rfl hwc0
      | cons x wc =>
        simp at hd; subst hd
        rcases hwc x (by simp) with h | h | h | h | h <;> subst h <;> decide
  have e1 : ∀ x : Bytes, a ++ (b!"/Count" ++ (wc ++ (natDec cnt ++ (b ++ x)))) =
      (a ++ (b!"/Count" ++ (wc ++ (natDec cnt ++ b)))) ++ x := by intro x; simp
  rw [e1, delete_core h1 h2 (compact_kids h1 h2 hp)]
  simp only
  generalize hl : nums.filter (fun m => decide (¬ natDec n <:+ natDec m)) = left
  have hll : left.length ≤ nums.length := by rw [← hl]; exact List.length_filter_le _ _
  by_cases e : left.length = nums.length ∨ left = []
  · rw [if_pos e, if_pos e]
  · rw [if_neg e, if_neg e, set_kids' h1 h2 hp hck, ← e1]
    have hr : NoOcc b!"/Count" (b ++ (b!"/Kids" ++ (kidsArray [] left b!" " ++ (32 :: c)))) := by
      refine noOcc_app hbc ?_ (by intro d hd; simp at hd; subst hd; decide)
      refine noOcc_app (noOcc_iff_index.2 (by decide)) ?_ (by intro d hd; rw [kidsArray_eq] at hd; simp at hd; subst hd; decide)
      exact noOcc_mid (by decide) (kids_noOcc _ _ _ _ nil_white sp_white) hcc
    rw [replace_count hac hr hwc0 hwc (ends_not_digit (hends _)), bump_count hac hr (hends _) (by omega)]
    have hpos : 1 ≤ left.length := by
      cases left with
      | nil => exact absurd (Or.inr rfl) e
      | cons x l => simp
    rw [if_neg (by omega)]
    have : itoa ((left.length : Int) + -1) = natDec (left.length - 1) := by
      rw [show (left.length : Int) + -1 = ((left.length - 1 : Nat) : Int) by omega]
      rfl
    rw [this]

/-! ### Insertion -/

/-- The numbers with a new one inserted before the 1-based position `page` (0 or beyond the end: appended). -/
theorem insertKid_refs (nums : List Nat) (page n : Nat) :
    insertKid (nums.map refText) page n =
      (if page = 0 ∨ page > nums.length then nums ++ [n] else nums.take (page - 1) ++ n :: nums.drop (page - 1)).map
        refText := by
  have hr : Writer.ref (n : Int) = refText n := rfl
  unfold insertKid
  rw [List.length_map, hr]
  split
  · simp
  · simp

theorem insert_kids_first {a b c w1 w2 wc : Bytes} {nums : List Nat} {n cnt page : Nat} (h1 : ∀ x ∈ w1, White x)
    (h2 : ∀ x ∈ w2, White x) (hwc0 : wc ≠ []) (hwc : ∀ x ∈ wc, White x)
    (hc : ∀ d, c.head? = some d → isDigit d = false ∧ d ∉ b!"Kids")
    (hno : ∀ t ∈ [a, b, c], NoOcc b!"/Kids" t ∧ NoOcc b!"/Count" t) :
    insertText (a ++ (b!"/Kids" ++ (kidsArray w1 nums w2 ++ (b ++ (b!"/Count" ++ (wc ++ (natDec cnt ++ c))))))) page n =
      let all := if page = 0 ∨ page > nums.length then nums ++ [n] else nums.take (page - 1) ++ n :: nums.drop (page - 1)
      some (a ++ (b!"/Kids" ++ (kidsArray [] all b!" " ++ (32 :: (b ++ (b!"/Count" ++ ([32] ++
        (natDec all.length ++ c)))))))) := by
  obtain ⟨hak, hac⟩ := hno a (by simp)
  obtain ⟨hbk, hbc⟩ := hno b (by simp)
  obtain ⟨hck, hcc⟩ := hno c (by simp)
  unfold insertText
  simp only
  rw [compact_kids h1 h2 hak, if_neg (by rw [kidsArray_eq]; simp), parse_kids w1 nums w2 h1 h2, insertKid_refs,
    kidsText_eq, List.length_map]
  generalize (if page = 0 ∨ page > nums.length then nums ++ [n] else nums.take (page - 1) ++ n :: nums.drop (page - 1)) = all
  have hrest : NoOcc b!"/Kids" (b ++ (b!"/Count" ++ (wc ++ (natDec cnt ++ c)))) := by
    refine noOcc_app hbk ?_ (by intro d hd; simp at hd; subst hd; decide)
    refine noOcc_app (noOcc_iff_index.2 (by decide)) ?_ ?_
    · have hw : NoOcc b!"/Kids" (wc ++ natDec cnt) := noOcc_of_head (by
        intro h
        rcases List.mem_append.1 h with h | h
        · have := hwc _ h; simp [White] at this
        · exact not_mem_natDec (by decide) cnt h)
      have := noOcc_app hw hck (fun d hd => (hc d hd).2)
      simpa using this
    · intro d hd
      cases wc with
      | nil => exact absurd rfl hwc0
      | cons x wc =>
        simp at hd; subst hd
        rcases hwc x (by simp) with h | h | h | h | h <;> subst h <;> decide
  rw [set_kids' h1 h2 hak hrest]
  have hp : NoOcc b!"/Count" (a ++ (b!"/Kids" ++ (kidsArray [] all b!" " ++ (32 :: b)))) := by
    refine noOcc_app hac ?_ (by intro d hd; simp at hd; subst hd; decide)
    refine noOcc_app (noOcc_iff_index.2 (by decide)) ?_ (by intro d hd; rw [kidsArray_eq] at hd; simp at hd; subst hd; decide)
    exact noOcc_mid (by decide) (kids_noOcc _ _ _ _ nil_white sp_white) hbc
  have e1 : ∀ x : Bytes, a ++ (b!"/Kids" ++ (kidsArray [] all b!" " ++ (32 :: (b ++ x)))) =
      (a ++ (b!"/Kids" ++ (kidsArray [] all b!" " ++ (32 :: b)))) ++ x := by intro x; simp
  rw [e1, e1, replace_count hp hcc hwc0 hwc (fun d hd => (hc d hd).1)]

end Pdfer.Manipulate
