import Verif.Model.GoLib

namespace Pdfer.Go

theorem natDecAux_stable (f g n : Nat) (hf : n ≤ f) (hg : n ≤ g) : natDecAux f n = natDecAux g n := by
  induction f generalizing g n with
  | zero =>
    have : n = 0 := by omega
    subst this
    cases g <;> simp [natDecAux]
  | succ f ih =>
    cases g with
    | zero =>
      have : n = 0 := by omega
      subst this
      simp [natDecAux]
    | succ g =>
      simp only [natDecAux]
      split
      · rfl
      · rw [ih g (n / 10) (by omega) (by omega)]

theorem natDec_lt {n : Nat} (h : n < 10) : natDec n = [digit n] := by
  unfold natDec
  cases n with
  | zero => rfl
  | succ n => simp [natDecAux, h]

theorem natDec_ge {n : Nat} (h : 10 ≤ n) : natDec n = natDec (n / 10) ++ [digit (n % 10)] := by
  unfold natDec
  obtain ⟨m, rfl⟩ : ∃ m, n = m + 1 := ⟨n - 1, by omega⟩
  rw [natDecAux, if_neg (by omega), natDecAux_stable m ((m + 1) / 10) ((m + 1) / 10) (by omega) (by omega)]

/-- Induction over decimal representations. -/
theorem natDec_induct {P : Nat → Prop} (base : ∀ n, n < 10 → P n) (step : ∀ n, 10 ≤ n → P (n / 10) → P n)
    (n : Nat) : P n := by
  induction n using Nat.strongRecOn with
  | _ n ih =>
    by_cases h : n < 10
    · exact base n h
    · exact step n (by omega) (ih (n / 10) (by omega))

theorem digit_toNat {n : Nat} (h : n < 10) : (digit n).toNat = 48 + n := by
  simp [digit]; omega

theorem isDigit_iff (c : UInt8) : isDigit c = true ↔ 48 ≤ c.toNat ∧ c.toNat ≤ 57 := by
  simp [isDigit, UInt8.le_iff_toNat_le]

theorem isDigit_digit {n : Nat} (h : n < 10) : isDigit (digit n) = true := by
  rw [isDigit_iff, digit_toNat h]; omega

theorem natDec_ne_nil (n : Nat) : natDec n ≠ [] := by
  by_cases h : n < 10
  · rw [natDec_lt h]; simp
  · rw [natDec_ge (by omega)]; simp

theorem natDec_digits (n : Nat) : ∀ c ∈ natDec n, isDigit c = true := by
  induction n using natDec_induct with
  | base n h => rw [natDec_lt h]; simp [isDigit_digit h]
  | step n h ih =>
    rw [natDec_ge h]
    intro c hc
    rcases List.mem_append.1 hc with h1 | h1
    · exact ih c h1
    · simp at h1; subst h1; exact isDigit_digit (by omega)

theorem digitsVal_append (a b : Bytes) :
    digitsVal (a ++ b) = b.foldl (fun v c => 10 * v + (c.toNat - 48)) (digitsVal a) := by
  simp [digitsVal, List.foldl_append]

theorem digitsVal_natDec (n : Nat) : digitsVal (natDec n) = n := by
  induction n using natDec_induct with
  | base n h => rw [natDec_lt h]; simp [digitsVal, digit_toNat h]
  | step n h ih =>
    rw [natDec_ge h, digitsVal_append, ih]
    simp only [List.foldl_cons, List.foldl_nil]
    rw [digit_toNat (Nat.mod_lt _ (by decide))]
    omega

theorem natDec_length_le (k n : Nat) (hk : 1 ≤ k) (h : n < 10 ^ k) : (natDec n).length ≤ k := by
  induction k generalizing n with
  | zero => omega
  | succ k ih =>
    by_cases h10 : n < 10
    · rw [natDec_lt h10]; simp
    · rw [natDec_ge (by omega)]
      have hk1 : 1 ≤ k := by
        rcases Nat.eq_zero_or_pos k with rfl | h'
        · simp at h; omega
        · omega
      have := ih (n / 10) hk1 (by rw [Nat.pow_succ] at h; omega)
      simp; omega

theorem natDec_inj {m n : Nat} (h : natDec m = natDec n) : m = n := by
  rw [← digitsVal_natDec m, h, digitsVal_natDec]

theorem padDec_length (k n : Nat) (hk : 1 ≤ k) (h : n < 10 ^ k) : (padDec k n).length = k := by
  have := natDec_length_le k n hk h
  simp [padDec]; omega

theorem padDec_ne_nil (k n : Nat) : padDec k n ≠ [] := by
  simp [padDec, natDec_ne_nil]

theorem padDec_digits (k n : Nat) : ∀ c ∈ padDec k n, isDigit c = true := by
  intro c hc
  rcases List.mem_append.1 hc with h | h
  · rw [List.mem_replicate] at h; rw [h.2]; decide
  · exact natDec_digits n c h

theorem digitsVal_padDec (k n : Nat) : digitsVal (padDec k n) = n := by
  unfold padDec
  rw [digitsVal_append]
  have hz : ∀ j, digitsVal (List.replicate j 48) = 0 := by
    intro j
    induction j with
    | zero => rfl
    | succ j ih => rw [List.replicate_succ', digitsVal_append, ih]; rfl
  rw [hz]
  exact digitsVal_natDec n

theorem atoi_digits (bs : Bytes) (h0 : bs ≠ []) (hd : ∀ c ∈ bs, isDigit c = true)
    (hv : digitsVal bs ≤ 9223372036854775807) : atoi bs = some (Int.ofNat (digitsVal bs)) := by
  have hm : atoiMag 9223372036854775807 bs = some (digitsVal bs) := by
    unfold atoiMag
    rw [if_neg h0, if_pos (by simpa using hd), if_pos hv]
  cases bs with
  | nil => exact absurd rfl h0
  | cons c r =>
    have hc := (isDigit_iff c).1 (hd c (by simp))
    unfold atoi
    split
    · rename_i h; simp at h; rw [h.1] at hc; simp at hc
    · rename_i h; simp at h; rw [h.1] at hc; simp at hc
    · rw [hm]; rfl

theorem atoi_natDec (n : Nat) (h : n ≤ 9223372036854775807) : atoi (natDec n) = some (Int.ofNat n) := by
  rw [atoi_digits _ (natDec_ne_nil n) (natDec_digits n) (by rw [digitsVal_natDec]; exact h), digitsVal_natDec]

theorem atoi_padDec (k n : Nat) (h : n ≤ 9223372036854775807) : atoi (padDec k n) = some (Int.ofNat n) := by
  rw [atoi_digits _ (padDec_ne_nil k n) (padDec_digits k n) (by rw [digitsVal_padDec]; exact h),
    digitsVal_padDec]

theorem isDigit_not_space {c : UInt8} (h : isDigit c = true) : isSpace c = false := by
  revert h
  exact forall_byte (p := fun c => isDigit c = true → isSpace c = false) (by decide +kernel) c

/-! ### split, fields, index -/

theorem split_ne_nil (sep : UInt8) (s : Bytes) : split sep s ≠ [] := by
  cases s with
  | nil => simp [split]
  | cons c cs =>
    simp only [split]
    split
    · simp
    · split <;> simp

/-- A line without separator, then the separator, then the rest. -/
theorem split_cons (sep : UInt8) (l rest : Bytes) (h : sep ∉ l) :
    split sep (l ++ sep :: rest) = l :: split sep rest := by
  induction l with
  | nil => simp [split]
  | cons c cs ih =>
    have hc : c ≠ sep := by intro e; exact h (by simp [e])
    rw [List.cons_append, split, if_neg hc, ih (by intro hm; exact h (by simp [hm]))]

theorem split_last (sep : UInt8) (l : Bytes) (h : sep ∉ l) : split sep l = [l] := by
  induction l with
  | nil => simp [split]
  | cons c cs ih =>
    have hc : c ≠ sep := by intro e; exact h (by simp [e])
    rw [split, if_neg hc, ih (by intro hm; exact h (by simp [hm]))]

theorem split_length (sep : UInt8) (l : Bytes) : (split sep l).length ≤ l.length + 1 := by
  induction l with
  | nil => simp [split]
  | cons c cs ih =>
    have h := split_ne_nil sep cs
    simp only [split]
    split
    · simp; omega
    · split
      · exact absurd ‹_› h
      · rename_i hs; rw [hs] at ih; simp at ih ⊢; omega

theorem fieldsAux_word (acc w : Bytes) (hw : ∀ c ∈ w, isSpace c = false) (rest : Bytes) :
    fieldsAux acc (w ++ rest) = fieldsAux (w.reverse ++ acc) rest := by
  induction w generalizing acc with
  | nil => rfl
  | cons c cs ih =>
    rw [List.cons_append, fieldsAux, if_neg (by simp [hw c (by simp)]),
      ih _ (fun x hx => hw x (by simp [hx]))]
    simp

theorem fields_word_space (w : Bytes) (hw : ∀ c ∈ w, isSpace c = false) (h0 : w ≠ []) (s : UInt8)
    (hs : isSpace s = true) (rest : Bytes) : fields (w ++ s :: rest) = w :: fields rest := by
  unfold fields
  rw [fieldsAux_word [] w hw, fieldsAux, if_pos hs, if_neg (by simpa using h0)]
  simp

theorem fields_word (w : Bytes) (hw : ∀ c ∈ w, isSpace c = false) (h0 : w ≠ []) : fields w = [w] := by
  have := fieldsAux_word [] w hw []
  unfold fields
  simp at this
  rw [this, fieldsAux]
  simp [h0]

theorem fields_nil : fields [] = [] := rfl

theorem index_some {pat s : Bytes} {i : Nat} (h : index pat s = some i) :
    pat <+: s.drop i ∧ ∀ j, j < i → ¬ pat <+: s.drop j := by
  induction s generalizing i with
  | nil =>
    simp only [index] at h
    split at h <;> simp at h
    rename_i hp
    subst h; subst hp; simp
  | cons c cs ih =>
    simp only [index] at h
    split at h
    · rename_i hp
      simp at h; subst h
      exact ⟨by simpa using hp, fun j hj => absurd hj (Nat.not_lt_zero j)⟩
    · rename_i hp
      cases hx : index pat cs with
      | none => rw [hx] at h; simp at h
      | some k =>
        rw [hx] at h; simp at h; subst h
        obtain ⟨h1, h2⟩ := ih hx
        refine ⟨by simpa using h1, ?_⟩
        intro j hj
        cases j with
        | zero => simpa using hp
        | succ j => simpa using h2 j (by omega)

theorem index_none {pat s : Bytes} (h : index pat s = none) (j : Nat) : ¬ pat <+: s.drop j := by
  induction s generalizing j with
  | nil =>
    simp only [index] at h
    split at h <;> simp at h
    simpa using ‹¬ pat = []›
  | cons c cs ih =>
    simp only [index] at h
    split at h
    · simp at h
    · rename_i hp
      have hx : index pat cs = none := by simpa using h
      cases j with
      | zero => simpa using hp
      | succ j => simpa using ih hx j

theorem index_eq_some_iff {pat s : Bytes} {i : Nat} :
    index pat s = some i ↔ i ≤ s.length ∧ pat <+: s.drop i ∧ ∀ j, j < i → ¬ pat <+: s.drop j := by
  constructor
  · intro h
    refine ⟨?_, index_some h⟩
    induction s generalizing i with
    | nil => simp only [index] at h; split at h <;> simp at h; omega
    | cons c cs ih =>
      simp only [index] at h
      split at h
      · simp at h; omega
      · cases hx : index pat cs with
        | none => rw [hx] at h; simp at h
        | some k => rw [hx] at h; simp at h; have := ih hx; simp; omega
  · rintro ⟨h0, h1, h2⟩
    cases hx : index pat s with
    | none => exact absurd h1 (index_none hx i)
    | some k =>
      obtain ⟨h3, h4⟩ := index_some hx
      rcases Nat.lt_trichotomy k i with h | h | h
      · exact absurd h3 (h2 k h)
      · rw [h]
      · exact absurd h1 (h4 i h)

/-! ### Maps -/

variable {κ ν : Type} [DecidableEq κ]

theorem Map.get_set_eq (m : Map κ ν) (k : κ) (v : ν) : (m.set k v).get k = some v := by
  simp [Map.get, Map.set]

theorem Map.get_set_ne (m : Map κ ν) {k j : κ} (v : ν) (h : j ≠ k) : (m.set k v).get j = m.get j := by
  unfold Map.get Map.set
  rw [List.find?_cons]
  simp only [show (decide (k = j)) = false by simpa using fun e => h e.symm]
  congr 1
  induction m with
  | nil => rfl
  | cons e t ih =>
    rw [List.filter_cons]
    split
    · rw [List.find?_cons, List.find?_cons, ih]
    · rename_i hk
      simp at hk
      rw [List.find?_cons]
      simp only [show (decide (e.1 = j)) = false by rw [hk]; simpa using fun e => h e.symm]
      exact ih

theorem Map.get_del_eq (m : Map κ ν) (k : κ) : (Map.del m k).get k = none := by
  unfold Map.del Map.get
  rw [Option.map_eq_none_iff, List.find?_eq_none]
  intro e he
  simp at he
  simpa using he.2

theorem Map.get_del_ne (m : Map κ ν) {k j : κ} (h : j ≠ k) : (Map.del m k).get j = m.get j := by
  unfold Map.del Map.get
  rw [List.find?_filter]
  congr 2
  funext e
  by_cases he : e.1 = j
  · simp [he, h]
  · simp [he]

theorem Map.get_set (m : Map κ ν) (k j : κ) (v : ν) :
    (m.set k v).get j = if j = k then some v else m.get j := by
  split
  · subst_vars; exact Map.get_set_eq m _ v
  · exact Map.get_set_ne m v ‹_›

theorem Map.mem_keys_set (m : Map κ ν) (k j : κ) (v : ν) : j ∈ (m.set k v).keys ↔ j = k ∨ j ∈ m.keys := by
  unfold Map.keys Map.set
  simp only [List.map_cons, List.mem_cons, List.mem_map, List.mem_filter]
  constructor
  · rintro (h | ⟨e, ⟨h1, h2⟩, h3⟩)
    · exact Or.inl h
    · exact Or.inr ⟨e, h1, h3⟩
  · rintro (h | ⟨e, h1, h3⟩)
    · exact Or.inl h
    · by_cases hk : e.1 = k
      · exact Or.inl (by rw [← h3, hk])
      · exact Or.inr ⟨e, ⟨h1, by simpa using hk⟩, h3⟩

theorem Map.nodup_set (m : Map κ ν) (k : κ) (v : ν) (h : m.keys.Nodup) : (m.set k v).keys.Nodup := by
  unfold Map.keys Map.set at *
  rw [List.map_cons, List.nodup_cons]
  constructor
  · simp only [List.mem_map, List.mem_filter, not_exists, not_and]
    rintro ⟨a, b⟩ ⟨_, h2⟩ h3
    simp at h2
    exact h2 h3
  · exact h.sublist ((List.filter_sublist).map _)

theorem Map.get_eq_some_iff (m : Map κ ν) (h : m.keys.Nodup) (k : κ) (v : ν) :
    m.get k = some v ↔ (k, v) ∈ m := by
  induction m with
  | nil => simp [Map.get]
  | cons e t ih =>
    obtain ⟨a, b⟩ := e
    unfold Map.keys at h ih
    rw [List.map_cons, List.nodup_cons] at h
    have ih := ih h.2
    unfold Map.get at ih ⊢
    rw [List.find?_cons]
    by_cases hk : a = k
    · subst hk
      simp only [decide_true, Option.map_some, Option.some.injEq, List.mem_cons, Prod.mk.injEq, true_and]
      constructor
      · intro h; exact Or.inl h.symm
      · rintro (h' | h')
        · exact h'.symm
        · exact absurd (List.mem_map.2 ⟨(a, v), h', rfl⟩) h.1
    · simp only [hk, decide_false, List.mem_cons, Prod.mk.injEq]
      rw [ih]
      simp [Ne.symm hk]

theorem Map.get_isSome_iff (m : Map κ ν) (k : κ) : (m.get k).isSome ↔ k ∈ m.keys := by
  unfold Map.get Map.keys
  simp [List.find?_isSome]

theorem Map.get_none_iff (m : Map κ ν) (k : κ) : m.get k = none ↔ k ∉ m.keys := by
  rw [← Map.get_isSome_iff]; cases m.get k <;> simp

theorem Map.get_perm (m₁ m₂ : Map κ ν) (hp : m₁.Perm m₂) (h : m₁.keys.Nodup) (k : κ) : m₁.get k = m₂.get k := by
  have h2 : m₂.keys.Nodup := (hp.map _).nodup_iff.1 h
  apply Option.ext
  intro v
  rw [Map.get_eq_some_iff _ h, Map.get_eq_some_iff _ h2]
  exact hp.mem_iff

end Pdfer.Go
