import Verif.Proofs.GoLib

/-! Lemmas about searching in text: occurrences, `index`, leftmost matching. -/

namespace Pdfer.Go

/-- `pat` does not occur in `s`. -/
def NoOcc (pat s : Bytes) : Prop := ∀ j, ¬ pat <+: s.drop j

theorem noOcc_iff_index {pat s : Bytes} : NoOcc pat s ↔ index pat s = none := by
  constructor
  · intro h
    cases hx : index pat s with
    | none => rfl
    | some i => exact absurd (index_some hx).1 (h i)
  · intro h j; exact index_none h j

theorem noOcc_of_head {c : UInt8} {pat s : Bytes} (h : c ∉ s) : NoOcc (c :: pat) s := by
  intro j hp
  obtain ⟨t, ht⟩ := hp
  apply h
  apply List.mem_of_mem_drop (i := j)
  rw [← ht]; simp

theorem noOcc_suffix {pat a s : Bytes} (h : NoOcc pat (a ++ s)) : NoOcc pat s := by
  intro j hp
  apply h (a.length + j)
  simpa using hp

theorem noOcc_drop {pat s : Bytes} (h : NoOcc pat s) (i : Nat) : NoOcc pat (s.drop i) := by
  intro j hp
  rw [List.drop_drop] at hp
  exact h _ hp

theorem noOcc_prefix {pat a s : Bytes} (h : NoOcc pat (a ++ s)) (hp : pat ≠ []) : NoOcc pat a := by
  intro j hj
  by_cases hle : j ≤ a.length
  · apply h j
    rw [List.drop_append_of_le_length hle]
    exact hj.trans (List.prefix_append _ _)
  · rw [List.drop_of_length_le (by omega)] at hj
    exact hp (List.prefix_nil.1 hj)

theorem noOcc_take {pat s : Bytes} (h : NoOcc pat s) (hp : pat ≠ []) (n : Nat) : NoOcc pat (s.take n) := by
  apply noOcc_prefix (s := s.drop n) _ hp
  rw [List.take_append_drop]; exact h

/-- Two texts joined by a byte that is not in the pattern. -/
theorem noOcc_mid {pat a b : Bytes} {c : UInt8} (hc : c ∉ pat) (ha : NoOcc pat a) (hb : NoOcc pat b) :
    NoOcc pat (a ++ c :: b) := by
  intro j hp
  by_cases h : j ≤ a.length
  · rw [List.drop_append_of_le_length h] at hp
    obtain ⟨t, ht⟩ := hp
    by_cases hlen : pat.length ≤ (a.drop j).length
    · apply ha j
      refine ⟨(a.drop j).drop pat.length, ?_⟩
      have h2 : pat = ((a.drop j) ++ c :: b).take pat.length := by rw [← ht]; simp
      rw [List.take_append_of_le_length hlen] at h2
      conv => lhs; lhs; rw [h2]
      exact List.take_append_drop _ _
    · apply hc
      have h2 : pat = ((a.drop j) ++ c :: b).take pat.length := by rw [← ht]; simp
      rw [h2, List.take_append]
      apply List.mem_append_right
      rw [show pat.length - (a.drop j).length = (pat.length - (a.drop j).length - 1) + 1 by omega]
      simp
  · apply hb (j - a.length - 1)
    rw [List.drop_append, List.drop_of_length_le (by omega), List.nil_append] at hp
    rw [show j - a.length = (j - a.length - 1) + 1 by omega, List.drop_succ_cons] at hp
    exact hp

theorem noOcc_nil {pat : Bytes} (h : pat ≠ []) : NoOcc pat [] := by
  intro j hp
  simp at hp
  exact h hp

/-- Skipping text without the first byte of the pattern. -/
theorem index_skip {c : UInt8} {pat a s : Bytes} (h : c ∉ a) :
    index (c :: pat) (a ++ s) = (index (c :: pat) s).map (· + a.length) := by
  induction a with
  | nil => simp
  | cons x a ih =>
    have hx : c ≠ x := fun e => h (by simp [e])
    have := ih (fun hm => h (by simp [hm]))
    rw [List.cons_append, index, if_neg (by simp [List.isPrefixOf, hx]), this]
    cases index (c :: pat) s <;> simp
    omega

theorem index_here {pat s : Bytes} (h : pat <+: s) : index pat s = some 0 := by
  cases s with
  | nil => simp at h; subst h; rfl
  | cons c cs =>
    rw [index, if_pos (by simpa using h)]

/-- The first occurrence after text without the pattern, separated by a byte not in the pattern. -/
theorem index_after {pat a s : Bytes} {c : UInt8} (hc : c ∉ pat) (ha : NoOcc pat a) (h : pat <+: s) :
    index pat (a ++ c :: s) = some (a.length + 1) := by
  rw [index_eq_some_iff]
  refine ⟨by simp, ?_, ?_⟩
  · rw [List.drop_append, List.drop_of_length_le (by omega), List.nil_append]
    simpa using h
  · intro j hj hp
    obtain ⟨t, ht⟩ := hp
    rw [List.drop_append_of_le_length (by omega)] at ht
    by_cases hlen : pat.length ≤ (a.drop j).length
    · apply ha j
      refine ⟨(a.drop j).drop pat.length, ?_⟩
      have h2 : pat = ((a.drop j) ++ c :: s).take pat.length := by rw [← ht]; simp
      rw [List.take_append_of_le_length hlen] at h2
      conv => lhs; lhs; rw [h2]
      exact List.take_append_drop _ _
    · apply hc
      have h2 : pat = ((a.drop j) ++ c :: s).take pat.length := by rw [← ht]; simp
      rw [h2, List.take_append]
      apply List.mem_append_right
      rw [show pat.length - (a.drop j).length = (pat.length - (a.drop j).length - 1) + 1 by omega]
      simp

/-! ### Leftmost matching -/

theorem searchWith_skip {α : Type} {p : Bytes → Option α} {a s : Bytes} (h : ∀ c ∈ a, ∀ t, p (c :: t) = none) :
    searchWith p (a ++ s) = searchWith p s := by
  induction a with
  | nil => rfl
  | cons c a ih =>
    rw [List.cons_append, searchWith, h c (by simp)]
    exact ih (fun c' hc' => h c' (by simp [hc']))

theorem searchWith_here {α : Type} {p : Bytes → Option α} {s : Bytes} {a : α} (h : p s = some a) :
    searchWith p s = some a := by
  cases s with
  | nil => exact h
  | cons c s => simp [searchWith, h]

theorem searchWith_none {α : Type} {p : Bytes → Option α} {key s : Bytes}
    (hp : ∀ s, p s ≠ none → key <+: s) (h : NoOcc key s) : searchWith p s = none := by
  induction s with
  | nil =>
    rw [searchWith]
    cases hx : p [] with
    | none => rfl
    | some a => exact absurd (hp [] (by simp [hx])) (by simpa using h 0)
  | cons c s ih =>
    rw [searchWith]
    cases hx : p (c :: s) with
    | none => exact ih (fun j => by simpa using h (j + 1))
    | some a => exact absurd (hp (c :: s) (by simp [hx])) (by simpa using h 0)

theorem reLit_append (l s : Bytes) : reLit l (l ++ s) = some s := by
  simp [reLit]

theorem reLit_prefix {l s : Bytes} (h : reLit l s ≠ none) : l <+: s := by
  unfold reLit at h
  split at h
  · rename_i hp; simpa using hp
  · exact absurd rfl h

theorem reLit_ne {c d : UInt8} {l s : Bytes} (h : c ≠ d) : reLit (c :: l) (d :: s) = none := by
  simp [reLit, List.isPrefixOf, h]

theorem reSp1_one {s : Bytes} (h : ∀ c, s.head? = some c → reSpace c = false) : reSp1 (32 :: s) = some s := by
  simp only [reSp1]
  rw [if_pos (by decide)]
  cases s with
  | nil => rfl
  | cons c s => rw [List.dropWhile_cons, h c rfl]; rfl

theorem takeWhile_digits {ds s : Bytes} (hd : ∀ c ∈ ds, isDigit c = true)
    (h : ∀ c, s.head? = some c → isDigit c = false) :
    (ds ++ s).takeWhile isDigit = ds ∧ (ds ++ s).dropWhile isDigit = s := by
  induction ds with
  | nil =>
    cases s with
    | nil => simp
    | cons c s => simp [h c rfl]
  | cons d ds ih =>
    have := ih (fun c hc => hd c (by simp [hc]))
    simp [hd d (by simp), this]

theorem reNum_digits {ds s : Bytes} (h0 : ds ≠ []) (hd : ∀ c ∈ ds, isDigit c = true)
    (h : ∀ c, s.head? = some c → isDigit c = false) : reNum (ds ++ s) = some (ds, s) := by
  obtain ⟨h1, h2⟩ := takeWhile_digits hd h
  simp [reNum, h1, h2, h0]

theorem reNum_natDec {n : Nat} {s : Bytes} (h : ∀ c, s.head? = some c → isDigit c = false) :
    reNum (natDec n ++ s) = some (natDec n, s) :=
  reNum_digits (natDec_ne_nil n) (natDec_digits n) h

theorem natDec_head (n : Nat) (s : Bytes) : ∀ c, (natDec n ++ s).head? = some c → isDigit c = true := by
  intro c hc
  have hne := natDec_ne_nil n
  cases hx : natDec n with
  | nil => exact absurd hx hne
  | cons d ds =>
    rw [hx] at hc
    simp at hc
    subst hc
    exact natDec_digits n d (by rw [hx]; simp)

theorem isDigit_not_reSpace {c : UInt8} (h : isDigit c = true) : reSpace c = false := by
  rw [isDigit_iff] at h
  have hne : ∀ d : UInt8, d.toNat < 48 → c ≠ d := fun d hd e => by subst e; omega
  simp [reSpace, hne 32 (by decide), hne 9 (by decide), hne 10 (by decide), hne 12 (by decide), hne 13 (by decide)]

theorem reKeyNum_natDec {key : Bytes} {n : Nat} {s : Bytes} (h : ∀ c, s.head? = some c → isDigit c = false) :
    reKeyNum key (key ++ (32 :: (natDec n ++ s))) = some (natDec n) := by
  unfold reKeyNum
  rw [reLit_append, Option.bind_some,
    reSp1_one (fun c hc => isDigit_not_reSpace (natDec_head n s c hc)), Option.bind_some, reNum_natDec h]
  rfl

theorem atoiClamp_natDec (n : Nat) (h : n ≤ 9223372036854775807) : atoiClamp (natDec n) = n := by
  unfold atoiClamp; rw [digitsVal_natDec]; omega

theorem not_mem_natDec {c : UInt8} (h : isDigit c = false) (n : Nat) : c ∉ natDec n := by
  intro hc
  rw [natDec_digits n c hc] at h
  exact absurd h (by decide)

end Pdfer.Go
