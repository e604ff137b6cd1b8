import Verif.Spec.Encoding
import Verif.Proofs.FieldText

/-! Hexadecimal numbers in text. -/

namespace Pdfer.Enc

open Pdfer.Go Pdfer.Strings Pdfer.Spec.Enc Pdfer.Font Pdfer.Forms

/-! ### Digits -/

theorem hexDigit_eq : ∀ c : UInt8, hexDigit c = hexDig c := by
  have h : ∀ n, n < 256 → hexDigit (UInt8.ofNat n) = hexDig (UInt8.ofNat n) := by decide +kernel
  intro c
  have := h c.toNat c.toNat_lt
  rwa [UInt8.ofNat_toNat] at this

theorem hexUp_dig : ∀ n, n < 16 → hexDig (hexUp n) = some n := by decide +kernel

/-- The digits that are written: 0-9 and A-F. -/
def UpHex (c : UInt8) : Prop := (48 ≤ c ∧ c ≤ 57) ∨ (65 ≤ c ∧ c ≤ 70)

theorem hexUp_up : ∀ n, n < 16 → UpHex (hexUp n) := by unfold UpHex; decide +kernel

theorem hexVal_append (a : Bytes) (c : UInt8) : hexVal (a ++ [c]) = hexVal a * 16 + (hexDig c).getD 0 := by
  simp [hexVal, List.foldl_append]

theorem hexAux_spec : ∀ (f n : Nat), n ≤ f → (∀ c ∈ hexAux f n, UpHex c ∧ isHex c = true) ∧ hexVal (hexAux f n) = n ∧ hexAux f n ≠ [] := by
  intro f
  induction f with
  | zero =>
    intro n h
    have : n = 0 := by omega
    subst this
    refine ⟨?_, by decide +kernel, by simp [hexAux]⟩
    intro c hc
    simp only [hexAux, Nat.zero_mod, List.mem_singleton] at hc
    subst hc
    exact ⟨hexUp_up 0 (by omega), by decide +kernel⟩
  | succ f ih =>
    intro n h
    rw [hexAux]
    split
    · rename_i hn
      refine ⟨?_, ?_, by simp⟩
      · intro c hc
        rw [List.mem_singleton] at hc
        subst hc
        exact ⟨hexUp_up n hn, by rw [isHex, hexUp_dig n hn]; rfl⟩
      · simp [hexVal, hexUp_dig n hn]
    · rename_i hn
      obtain ⟨h1, h2, h3⟩ := ih (n / 16) (by omega)
      have hm := hexUp_dig (n % 16) (Nat.mod_lt _ (by omega))
      refine ⟨?_, ?_, by simp⟩
      · intro c hc
        rcases List.mem_append.1 hc with hc | hc
        · exact h1 c hc
        · rw [List.mem_singleton] at hc
          subst hc
          exact ⟨hexUp_up _ (Nat.mod_lt _ (by omega)), by rw [isHex, hm]; rfl⟩
      · rw [hexVal_append, h2, hm, Option.getD_some]; omega

theorem hexAux_length : ∀ (k f n : Nat), n < 16 ^ (k + 1) → (hexAux f n).length ≤ k + 1 := by
  intro k
  induction k with
  | zero =>
    intro f n h
    cases f with
    | zero => simp [hexAux]
    | succ f => rw [hexAux, if_pos (by simpa using h)]; simp
  | succ k ih =>
    intro f n h
    cases f with
    | zero => simp [hexAux]
    | succ f =>
      rw [hexAux]
      split
      · simp
      · have : n / 16 < 16 ^ (k + 1) := by
          rw [Nat.pow_succ] at h
          omega
        have := ih f (n / 16) this
        simp only [List.length_append, List.length_singleton]
        omega

theorem hexVal_zeros (k : Nat) (a : Bytes) : hexVal (List.replicate k 48 ++ a) = hexVal a := by
  induction k with
  | zero => rfl
  | succ k ih =>
    rw [List.replicate_succ, List.cons_append]
    rw [hexVal, List.foldl_cons, show 0 * 16 + (hexDig 48).getD 0 = 0 by decide +kernel]
    exact ih

theorem hexPad_spec (k n : Nat) : (∀ c ∈ hexPad k n, UpHex c ∧ isHex c = true) ∧ hexVal (hexPad k n) = n ∧ hexPad k n ≠ [] := by
  obtain ⟨h1, h2, h3⟩ := hexAux_spec n n (Nat.le_refl _)
  refine ⟨?_, by rw [hexPad, hexVal_zeros, h2], by simp [hexPad, h3]⟩
  intro c hc
  rcases List.mem_append.1 hc with hc | hc
  · rw [List.eq_of_mem_replicate hc]
    exact ⟨by unfold UpHex; decide, by decide +kernel⟩
  · exact h1 c hc

theorem hexPad_length {k n : Nat} (h : n < 16 ^ (k + 1)) : (hexPad (k + 1) n).length = k + 1 := by
  have := hexAux_length k n n h
  simp only [hexPad, List.length_append, List.length_replicate]
  omega

theorem parseHex_of_hex {h : Bytes} (h1 : ∀ c ∈ h, isHex c = true) (h2 : h ≠ []) (h3 : hexVal h ≤ 2147483647) :
    parseHex h = some (hexVal h : Int) := by
  have hm : hexMag 2147483647 h = some (hexVal h) := by
    rw [hexMag, if_neg h2, if_pos (by simpa using h1), if_pos h3]
  cases h with
  | nil => exact absurd rfl h2
  | cons c r =>
    have hc := h1 c (by simp)
    unfold parseHex
    split
    · rename_i heq
      rw [List.cons.injEq] at heq
      rw [heq.1] at hc
      exact absurd hc (by decide +kernel)
    · rename_i heq
      rw [List.cons.injEq] at heq
      rw [heq.1] at hc
      exact absurd hc (by decide +kernel)
    · rw [hm]; rfl

theorem parseHex_pad (k n : Nat) (h : n ≤ 2147483647) : parseHex (hexPad k n) = some (n : Int) := by
  obtain ⟨h1, h2, h3⟩ := hexPad_spec k n
  have := parseHex_of_hex (fun c hc => (h1 c hc).2) h3 (by omega)
  rwa [h2] at this

theorem hexRunes_pad {u : Nat} (h : u < 65536) : hexRunes (hexPad 4 u) = [(u : Int)] := by
  rw [hexRunes, if_pos (.inl (hexPad_length (k := 3) (by omega))), parseHex_pad 4 u (by omega)]
  rfl

/-! ### Hexadecimal strings -/

theorem pairUp_hex {t : Bytes} {data : Bytes} (h : pairUp t = some data) : ∀ c ∈ t, isHex c = true := by
  fun_induction pairUp t generalizing data with
  | case1 => simp
  | case2 a =>
    intro c hc
    rw [List.mem_singleton] at hc
    subst hc
    rw [hexDigit_eq] at h
    cases hx : hexDig c with
    | none => rw [hx] at h; simp at h
    | some x => rw [isHex, hx]; rfl
  | case3 a b r ih =>
    rw [hexDigit_eq, hexDigit_eq] at h
    cases hx : hexDig a with
    | none => rw [hx] at h; simp at h
    | some x =>
      cases hy : hexDig b with
      | none => rw [hx, hy] at h; simp at h
      | some y =>
        cases hr : pairUp r with
        | none => rw [hx, hy, hr] at h; simp at h
        | some d =>
          intro c hc
          simp only [List.mem_cons] at hc
          rcases hc with rfl | rfl | hc
          · rw [isHex, hx]; rfl
          · rw [isHex, hy]; rfl
          · exact ih hr c hc

theorem hexDig_lt {c : UInt8} {x : Nat} (h : hexDig c = some x) : x < 16 := by
  have := c.toNat_lt
  unfold hexDig at h
  simp only [UInt8.le_iff_toNat_le] at h
  repeat' split at h
  all_goals first
    | (simp only [Option.some.injEq] at h; simp_all; omega)
    | simp at h

theorem parse2 {a b : UInt8} {x y : Nat} (ha : hexDig a = some x) (hb : hexDig b = some y) :
    parseHex [a, b] = some (((UInt8.ofNat (16 * x + y)).toNat : Nat) : Int) := by
  have hx := hexDig_lt ha
  have hy := hexDig_lt hb
  have hv : hexVal [a, b] = 16 * x + y := by simp [hexVal, ha, hb]; omega
  rw [parseHex_of_hex (by intro c hc; simp only [List.mem_cons, List.not_mem_nil, or_false] at hc; rcases hc with rfl | rfl <;> simp [isHex, ha, hb])
    (by simp) (by omega), hv]
  simp only [UInt8.toNat_ofNat']
  rw [Nat.mod_eq_of_lt (by omega)]

/-- Padding with a zero does not change the value. -/
theorem pairUp_pad (t : Bytes) : pairUp (if t.length % 2 ≠ 0 then t ++ b!"0" else t) = pairUp t := by
  fun_induction pairUp t with
  | case1 => rfl
  | case2 a =>
    simp only [List.length_singleton, ne_eq, Nat.mod_succ, Nat.one_ne_zero, not_false_eq_true, if_true]
    show pairUp [a, 48] = _
    rw [pairUp, show hexDigit 48 = some 0 by decide +kernel]
    simp only [pairUp, Option.bind_some, Option.map_some, Nat.add_zero]
    cases hexDigit a <;> rfl
  | case3 a b r ih =>
    have e : (a :: b :: r).length % 2 = r.length % 2 := by simp only [List.length_cons]; omega
    rw [e]
    by_cases hr : r.length % 2 ≠ 0
    · rw [if_pos hr] at ih ⊢
      simp only [List.cons_append]
      rw [pairUp, ih]
    · rw [if_neg hr]
      rw [pairUp]

theorem chunks2_decode (d : Decoder) : ∀ (t data : Bytes), t.length % 2 = 0 → pairUp t = some data →
    (chunks2 t).flatMap (codeText d) = data.flatMap fun b => writeRuneI (lookupCode d b.toNat) := by
  intro t
  fun_induction pairUp t with
  | case1 => intro data _ h; simp only [Option.some.injEq] at h; subst h; rfl
  | case2 a => intro data h; simp at h
  | case3 a b r ih =>
    intro data he h
    rw [hexDigit_eq, hexDigit_eq] at h
    cases hx : hexDig a with
    | none => rw [hx] at h; simp at h
    | some x =>
      cases hy : hexDig b with
      | none => rw [hx, hy] at h; simp at h
      | some y =>
        cases hr : pairUp r with
        | none => rw [hx, hy, hr] at h; simp at h
        | some t =>
          rw [hx, hy, hr] at h
          simp only [Option.bind_some, Option.map_some, Option.some.injEq] at h
          subst h
          rw [chunks2, List.flatMap_cons, codeText, parse2 hx hy, List.flatMap_cons, ih t (by simp only [List.length_cons] at he; omega) hr]

theorem parse4 {a b c e : UInt8} {x y z w : Nat} (ha : hexDig a = some x) (hb : hexDig b = some y) (hc : hexDig c = some z)
    (he : hexDig e = some w) :
    parseHex [a, b, c, e] = some ((256 * (UInt8.ofNat (16 * x + y)).toNat + (UInt8.ofNat (16 * z + w)).toNat : Nat) : Int) := by
  have hx := hexDig_lt ha
  have hy := hexDig_lt hb
  have hz := hexDig_lt hc
  have hw := hexDig_lt he
  have hv : hexVal [a, b, c, e] = 256 * (16 * x + y) + (16 * z + w) := by simp [hexVal, ha, hb, hc, he]; omega
  rw [parseHex_of_hex (by
      intro q hq
      simp only [List.mem_cons, List.not_mem_nil, or_false] at hq
      rcases hq with rfl | rfl | rfl | rfl <;> simp [isHex, ha, hb, hc, he]) (by simp) (by omega), hv]
  simp only [UInt8.toNat_ofNat']
  rw [Nat.mod_eq_of_lt (by omega), Nat.mod_eq_of_lt (by omega)]

theorem chunks4_decode (d : Decoder) : ∀ (n : Nat) (t data : Bytes), t.length = 4 * n → pairUp t = some data →
    (chunks4 t).flatMap (codeText d) = (codes2 data).flatMap fun (c : Nat) => writeRuneI (lookupCode d c) := by
  intro n
  induction n with
  | zero =>
    intro t data h1 h2
    have : t = [] := List.eq_nil_of_length_eq_zero (by omega)
    subst this
    simp only [pairUp, Option.some.injEq] at h2
    subst h2
    rfl
  | succ n ih =>
    intro t data h1 h2
    obtain ⟨a, t, rfl⟩ : ∃ a r, t = a :: r := List.exists_cons_of_length_pos (by omega)
    obtain ⟨b, t, rfl⟩ : ∃ a r, t = a :: r := List.exists_cons_of_length_pos (by simp only [List.length_cons] at h1; omega)
    obtain ⟨c, t, rfl⟩ : ∃ a r, t = a :: r := List.exists_cons_of_length_pos (by simp only [List.length_cons] at h1; omega)
    obtain ⟨e, t, rfl⟩ : ∃ a r, t = a :: r := List.exists_cons_of_length_pos (by simp only [List.length_cons] at h1; omega)
    simp only [List.length_cons] at h1
    rw [pairUp, pairUp, hexDigit_eq, hexDigit_eq, hexDigit_eq, hexDigit_eq] at h2
    cases hx : hexDig a with
    | none => rw [hx] at h2; simp at h2
    | some x =>
    cases hy : hexDig b with
    | none => rw [hx, hy] at h2; simp at h2
    | some y =>
    cases hz : hexDig c with
    | none => rw [hx, hy, hz] at h2; simp at h2
    | some z =>
    cases hw : hexDig e with
    | none => rw [hx, hy, hz, hw] at h2; simp at h2
    | some w =>
    cases hr : pairUp t with
    | none => rw [hx, hy, hz, hw, hr] at h2; simp at h2
    | some t' =>
      rw [hx, hy, hz, hw, hr] at h2
      simp only [Option.bind_some, Option.map_some, Option.some.injEq] at h2
      subst h2
      rw [chunks4, List.flatMap_cons, codeText, parse4 hx hy hz hw, codes2, List.flatMap_cons, ih t t' (by omega) hr]

/-- The text between the brackets reaches the loop without its white space. -/
theorem hexClean_eq {t : Bytes} (h : ∀ c ∈ t, c ≠ 60 ∧ c ≠ 62) (hw : ∀ c ∈ t, white c = true → c = 32 ∨ c = 10 ∨ c = 13) :
    hexClean (b!"<" ++ t ++ b!">") =
      if (t.filter fun c => !white c).length % 2 ≠ 0 then (t.filter fun c => !white c) ++ b!"0" else t.filter fun c => !white c := by
  have e1 : (b!"<").isPrefixOf (b!"<" ++ t ++ b!">") = true := by simp [List.isPrefixOf]
  have e2 : (b!">").isSuffixOf ((b!"<" ++ t ++ b!">").drop 1) = true := by
    rw [List.isSuffixOf_iff_suffix]
    exact ⟨t, by simp⟩
  rw [hexClean]
  simp only [e1, if_true, e2]
  have e3 : ((b!"<" ++ t ++ b!">").drop 1).take (((b!"<" ++ t ++ b!">").drop 1).length - 1) = t := by simp
  rw [e3]
  have e4 : t.filter (fun c => decide (c ≠ 32 ∧ c ≠ 10 ∧ c ≠ 13)) = t.filter fun c => !white c := by
    apply List.filter_congr
    intro c hc
    have := hw c hc
    by_cases hwc : white c = true
    · rcases this hwc with rfl | rfl | rfl <;> decide
    · have h0 : white c = false := by simpa using hwc
      rw [h0]
      simp only [Bool.not_false, decide_eq_true_eq]
      refine ⟨?_, ?_, ?_⟩ <;> · rintro rfl; exact absurd h0 (by decide)
  rw [e4]

end Pdfer.Enc
