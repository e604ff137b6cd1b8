import Verif.Model.Strings
import Verif.Spec.Strings
import Verif.Proofs.Text

/-! Lemmas about strings: UTF-8, escaping, unescaping. -/

namespace Pdfer.Strings

open Pdfer.Go Pdfer.Spec

/-! ### UTF-8 -/

theorem u8_toNat {n : Nat} (h : n < 256) : (UInt8.ofNat n).toNat = n := by
  rw [UInt8.toNat_ofNat']; omega

theorem char_valid (c : Char) : c.toNat < 0xD800 ∨ (0xDFFF < c.toNat ∧ c.toNat < 0x110000) := c.valid

theorem writeRune_char (c : Char) : writeRune c.toNat = String.utf8EncodeChar c := by
  have hv := char_valid c
  unfold writeRune String.utf8EncodeChar
  have e : c.val.toNat = c.toNat := rfl
  simp only [e]
  generalize c.toNat = v at hv
  by_cases h1 : v < 0x80
  · rw [if_pos h1, if_pos (show v ≤ 127 by omega)]
  rw [if_neg h1, if_neg (show ¬ v ≤ 127 by omega)]
  by_cases h2 : v < 0x800
  · rw [if_pos h2, if_pos (show v ≤ 2047 by omega)]
    rw [show 0xC0 + v / 64 = v / 64 % 32 + 192 by omega, Nat.add_comm 0x80]
  rw [if_neg h2, if_neg (show ¬ v ≤ 2047 by omega), if_neg (by omega)]
  by_cases h3 : v < 0x10000
  · rw [if_pos h3, if_pos (show v ≤ 65535 by omega)]
    rw [show 0xE0 + v / 4096 = v / 4096 % 16 + 224 by omega, Nat.add_comm 0x80, Nat.add_comm 0x80]
  rw [if_neg h3, if_neg (show ¬ v ≤ 65535 by omega)]
  rw [show 0xF0 + v / 262144 = v / 262144 % 8 + 240 by omega, Nat.add_comm 0x80, Nat.add_comm 0x80, Nat.add_comm 0x80]

theorem decodeRune_write (v : Nat) (hv : v < 0xD800 ∨ (0xDFFF < v ∧ v < 0x110000)) (rest : Bytes) :
    ∃ b t, writeRune v = b :: t ∧ decodeRune b (t ++ rest) = (v, t.length + 1) := by
  have key : ∀ n, n < 256 → ∀ m, m < 256 → ((UInt8.ofNat n ≤ UInt8.ofNat m) ↔ n ≤ m) := by
    intro n hn m hm
    rw [UInt8.le_iff_toNat_le, u8_toNat hn, u8_toNat hm]
  unfold writeRune
  by_cases h1 : v < 0x80
  · refine ⟨UInt8.ofNat v, [], by rw [if_pos h1], ?_⟩
    unfold decodeRune
    rw [if_pos (by rw [UInt8.lt_iff_toNat_lt, u8_toNat (by omega)]; simpa using h1), u8_toNat (by omega)]
    rfl
  rw [if_neg h1]
  by_cases h2 : v < 0x800
  · refine ⟨UInt8.ofNat (0xC0 + v / 64), [UInt8.ofNat (0x80 + v % 64)], by rw [if_pos h2], ?_⟩
    unfold decodeRune isCont
    have a1 := u8_toNat (n := 0xC0 + v / 64) (by omega)
    have a2 := u8_toNat (n := 0x80 + v % 64) (by omega)
    simp only [UInt8.lt_iff_toNat_lt, UInt8.le_iff_toNat_le, a1, a2, List.cons_append, List.nil_append, UInt8.reduceToNat]
    rw [if_neg (by omega), if_pos (by simp; omega), if_pos (by simp; omega)]
    simp; omega
  rw [if_neg h2, if_neg (by omega)]
  by_cases h3 : v < 0x10000
  · refine ⟨_, _, by rw [if_pos h3], ?_⟩
    unfold decodeRune secondOk isCont
    have a1 := u8_toNat (n := 0xE0 + v / 4096) (by omega)
    have a2 := u8_toNat (n := 0x80 + v / 64 % 64) (by omega)
    have a3 := u8_toNat (n := 0x80 + v % 64) (by omega)
    simp only [UInt8.lt_iff_toNat_lt, UInt8.le_iff_toNat_le, beq_iff_eq, ← UInt8.toNat_inj, a1, a2, a3,
      List.cons_append, List.nil_append, UInt8.reduceToNat]
    rw [if_neg (by omega), if_neg (by simp; omega), if_pos (by simp; omega), if_pos]
    · simp; omega
    · by_cases e1 : 0xE0 + v / 4096 = 0xE0
      · rw [if_pos e1]; simp; omega
      · rw [if_neg e1]
        by_cases e2 : 0xE0 + v / 4096 = 0xED
        · rw [if_pos e2]; simp; omega
        · rw [if_neg e2, if_neg (by omega), if_neg (by omega)]; simp; omega
  · refine ⟨_, _, by rw [if_neg h3], ?_⟩
    unfold decodeRune secondOk isCont
    have a1 := u8_toNat (n := 0xF0 + v / 262144) (by omega)
    have a2 := u8_toNat (n := 0x80 + v / 4096 % 64) (by omega)
    have a3 := u8_toNat (n := 0x80 + v / 64 % 64) (by omega)
    have a4 := u8_toNat (n := 0x80 + v % 64) (by omega)
    simp only [UInt8.lt_iff_toNat_lt, UInt8.le_iff_toNat_le, beq_iff_eq, ← UInt8.toNat_inj, a1, a2, a3, a4,
      List.cons_append, List.nil_append, UInt8.reduceToNat]
    rw [if_neg (by omega), if_neg (by simp; omega), if_neg (by simp; omega), if_pos (by simp; omega), if_pos]
    · simp; omega
    · rw [if_neg (by omega), if_neg (by omega)]
      by_cases e1 : 0xF0 + v / 262144 = 0xF0
      · rw [if_pos e1]; simp; omega
      · rw [if_neg e1]
        by_cases e2 : 0xF0 + v / 262144 = 0xF4
        · rw [if_pos e2]; simp; omega
        · rw [if_neg e2]; simp; omega

theorem runesFrom_skip (t s : Bytes) : runesFrom t.length (t ++ s) = runesFrom 0 s := by
  induction t with
  | nil => rfl
  | cons a t ih => simpa [runesFrom] using ih

theorem runes_utf8 (t : List Char) : runes (utf8 t) = t.map Char.toNat := by
  induction t with
  | nil => rfl
  | cons c t ih =>
    unfold utf8 runes at *
    rw [List.flatMap_cons, ← writeRune_char]
    obtain ⟨b, u, h1, h2⟩ := decodeRune_write c.toNat (char_valid c) (t.flatMap String.utf8EncodeChar)
    rw [h1, List.cons_append, runesFrom, h2]
    simp only [Nat.add_sub_cancel, runesFrom_skip, ih, List.map_cons]

/-- Multi-byte encodings are all bytes from 0x80. -/
theorem writeRune_high (r : Nat) (h : 0x80 ≤ r) : ∀ b ∈ writeRune r, 0x80 ≤ b := by
  have key : ∀ n, 128 ≤ n % 256 → (0x80 : UInt8) ≤ UInt8.ofNat n := by
    intro n h2; rw [UInt8.le_iff_toNat_le, UInt8.toNat_ofNat']; simpa using h2
  unfold writeRune
  rw [if_neg (by omega)]
  split
  · simp only [List.mem_cons, List.not_mem_nil, or_false]
    rintro b (rfl | rfl) <;> exact key _ (by omega)
  split
  · decide
  split
  · simp only [List.mem_cons, List.not_mem_nil, or_false]
    rintro b (rfl | rfl | rfl) <;> exact key _ (by omega)
  · simp only [List.mem_cons, List.not_mem_nil, or_false]
    rintro b (rfl | rfl | rfl | rfl) <;> exact key _ (by omega)

/-! ### Literal strings -/

/-- A token that the reader turns into `out` whatever follows. -/
def Reads (tok out : Bytes) : Prop :=
  ∀ s, litFrom .plain 0 (tok ++ s) = (litFrom .plain 0 s).map (fun p => (out ++ p.1, p.2))

theorem reads_nil : Reads [] [] := by
  intro s; simp only [List.nil_append]; cases litFrom .plain 0 s <;> rfl

theorem reads_append {a b x y : Bytes} (h1 : Reads a x) (h2 : Reads b y) : Reads (a ++ b) (x ++ y) := by
  intro s
  rw [List.append_assoc, h1, h2]
  cases litFrom .plain 0 s <;> simp

theorem reads_plain (c : UInt8) (h : c ≠ 40 ∧ c ≠ 41 ∧ c ≠ 92 ∧ c ≠ 13) : Reads [c] [c] := by
  intro s
  simp [litFrom, litStep, litPlain, h]

theorem reads_plains (l : Bytes) (h : ∀ c ∈ l, c ≠ 40 ∧ c ≠ 41 ∧ c ≠ 92 ∧ c ≠ 13) : Reads l l := by
  induction l with
  | nil => exact reads_nil
  | cons c l ih =>
    exact reads_append (a := [c]) (x := [c]) (reads_plain c (h c (by simp))) (ih (fun d hd => h d (by simp [hd])))

theorem reads_map (x y : UInt8) (h : (x, y) ∈ [((40 : UInt8), (40 : UInt8)), (41, 41), (92, 92), (110, 10), (114, 13), (116, 9)]) :
    Reads [92, x] [y] := by
  intro s
  simp only [List.mem_cons, Prod.mk.injEq, List.not_mem_nil, or_false] at h
  rcases h with ⟨rfl, rfl⟩ | ⟨rfl, rfl⟩ | ⟨rfl, rfl⟩ | ⟨rfl, rfl⟩ | ⟨rfl, rfl⟩ | ⟨rfl, rfl⟩ <;>
  · simp only [litFrom, litStep, litPlain, isOct, List.cons_append, List.nil_append, Option.map_map]
    simp [litFrom, litStep, litPlain, isOct, Function.comp_def]

theorem reads_flatMap {α : Type} (f g : α → Bytes) (l : List α) (h : ∀ a ∈ l, Reads (f a) (g a)) :
    Reads (l.flatMap f) (l.flatMap g) := by
  induction l with
  | nil => exact reads_nil
  | cons a l ih =>
    rw [List.flatMap_cons, List.flatMap_cons]
    exact reads_append (h a (by simp)) (ih (fun b hb => h b (by simp [hb])))

theorem reads_literal {a x : Bytes} (h : Reads a x) (rest : Bytes) :
    readLiteral (b!"(" ++ a ++ b!")" ++ rest) = some (x, rest) := by
  simp only [readLiteral, List.append_assoc, List.cons_append, List.nil_append]
  rw [h]
  simp [litFrom, litStep, litPlain]

theorem high_plain (b : UInt8) (h : 0x80 ≤ b) : b ≠ 40 ∧ b ≠ 41 ∧ b ≠ 92 ∧ b ≠ 13 := by
  rw [UInt8.le_iff_toNat_le] at h
  refine ⟨?_, ?_, ?_, ?_⟩ <;> · rintro rfl; revert h; decide

theorem reads_writeRune (r : Nat) (h : r ≠ 40 ∧ r ≠ 41 ∧ r ≠ 92 ∧ r ≠ 13) : Reads (writeRune r) (writeRune r) := by
  by_cases hr : 0x80 ≤ r
  · exact reads_plains _ (fun b hb => high_plain b (writeRune_high r hr b hb))
  · unfold writeRune
    rw [if_pos (by omega)]
    apply reads_plain
    simp only [ne_eq, ← UInt8.toNat_inj, u8_toNat (n := r) (by omega), UInt8.reduceToNat]
    exact h

theorem reads_escRune (r : Nat) : Reads (escRune r) (writeRune r) := by
  unfold escRune
  repeat' split
  all_goals first
    | (subst_vars; exact reads_map _ _ (by decide))
    | (apply reads_writeRune; omega)


/-! ### `strings.ReplaceAll` -/

theorem replace_one (p : UInt8) (rep s : Bytes) :
    replaceAll s [p] rep = s.flatMap (fun c => if c = p then rep else [c]) := by
  unfold replaceAll
  induction s with
  | nil => rfl
  | cons c s ih =>
    rw [List.flatMap_cons, ← ih, replaceFrom]
    simp only [List.isPrefixOf, Bool.and_true, beq_iff_eq, List.length_cons, List.length_nil]
    by_cases h : p = c
    · simp [h]
    · rw [if_neg h, if_neg (by simpa [eq_comm] using h)]; rfl

/-- What `escapePDFStringForMetadata` does to one byte. -/
def escByte (c : UInt8) : Bytes :=
  if c = 92 then [92, 92] else if c = 40 then [92, 40] else if c = 41 then [92, 41]
  else if c = 10 then [92, 110] else if c = 13 then [92, 114] else if c = 9 then [92, 116] else [c]

theorem escapeMeta_eq (s : Bytes) : escapeMeta s = s.flatMap escByte := by
  unfold escapeMeta
  simp only [replace_one, List.flatMap_assoc]
  congr 1
  funext c
  revert c
  exact forall_byte (by decide +kernel)

theorem reads_escByte (c : UInt8) : Reads (escByte c) [c] := by
  unfold escByte
  repeat' split
  all_goals first
    | (subst_vars; exact reads_map _ _ (by decide))
    | (apply reads_plain; simp_all)

theorem replace_hit (x y : UInt8) (s : Bytes) : replaceFrom [92, x] [y] 0 (92 :: x :: s) = y :: replaceFrom [92, x] [y] 0 s := by
  simp [replaceFrom]

theorem replace_other (x y c : UInt8) (s : Bytes) (h : c ≠ 92) :
    replaceFrom [92, x] [y] 0 (c :: s) = c :: replaceFrom [92, x] [y] 0 s := by
  rw [replaceFrom, if_neg]
  simp only [List.isPrefixOf, Bool.and_eq_true, beq_iff_eq, not_and]
  intro e
  exact absurd e.symm h

theorem replace_miss (x y : UInt8) (s : Bytes) (h : s.head? ≠ some x) :
    replaceFrom [92, x] [y] 0 (92 :: s) = 92 :: replaceFrom [92, x] [y] 0 s := by
  rw [replaceFrom, if_neg]
  cases s with
  | nil => simp
  | cons d s => simp at h ⊢; exact fun e => h e.symm

/-- The letter a special byte is escaped with. -/
def letter (c : UInt8) : Option UInt8 :=
  if c = 10 then some 110 else if c = 13 then some 114 else if c = 9 then some 116
  else if c = 40 then some 40 else if c = 41 then some 41 else none

/-- The byte an escape letter stands for. -/
def ctrl (x : UInt8) : UInt8 := if x = 110 then 10 else if x = 114 then 13 else if x = 116 then 9 else x

/-- The letters that can follow a backslash that is not an escape. -/
def bad (x : UInt8) : Bool := x == 110 || x == 114 || x == 116

/-- The escaped text after the replacements for the letters in `D`. -/
def stage (D : Bytes) : Bytes → Bytes
  | [] => []
  | [c] => if c = 92 then [92, 92] else match letter c with
    | some x => if x ∈ D then [c] else [92, x]
    | none => [c]
  | c :: y :: s =>
    if c = 92 then
      if y ∈ D ∧ bad y then 92 :: ctrl y :: stage D s else 92 :: 92 :: stage D (y :: s)
    else match letter c with
      | some x => if x ∈ D then c :: stage D (y :: s) else 92 :: x :: stage D (y :: s)
      | none => c :: stage D (y :: s)

theorem stage_other (D : Bytes) (c : UInt8) (s : Bytes) (h : c ≠ 92) :
    stage D (c :: s) = (match letter c with
      | some x => if x ∈ D then [c] else [92, x]
      | none => [c]) ++ stage D s := by
  cases s with
  | nil => simp [stage, h]
  | cons y s =>
    rw [stage, if_neg h]
    cases letter c with
    | none => rfl
    | some x => simp only; split <;> rfl

theorem stage_bs (D : Bytes) (s : Bytes) (h : ∀ y s', s = y :: s' → ¬ (y ∈ D ∧ bad y = true)) :
    stage D (92 :: s) = 92 :: 92 :: stage D s := by
  cases s with
  | nil => simp [stage]
  | cons y s => rw [stage, if_pos rfl, if_neg (h y s rfl)]

theorem stage_bad (D : Bytes) (y : UInt8) (s : Bytes) (h : y ∈ D ∧ bad y = true) :
    stage D (92 :: y :: s) = 92 :: ctrl y :: stage D s := by
  rw [stage, if_pos rfl, if_pos h]

theorem letter_mem {c x : UInt8} (h : letter c = some x) : x ∈ [(110 : UInt8), 114, 116, 40, 41] ∧ c = ctrl x ∧ c ≠ 92 := by
  unfold letter at h
  split at h
  · simp at h; subst h; subst c; decide
  split at h
  · simp at h; subst h; subst c; decide
  split at h
  · simp at h; subst h; subst c; decide
  split at h
  · simp at h; subst h; subst c; decide
  split at h
  · simp at h; subst h; subst c; decide
  · simp at h

theorem bad_ctrl {y : UInt8} (h : bad y = true) : ctrl y ∈ [(10 : UInt8), 13, 9] ∧ letter y = none ∧ y ≠ 92 := by
  simp only [bad, Bool.or_eq_true, beq_iff_eq] at h
  rcases h with (rfl | rfl) | rfl <;> decide

/-- The first byte of a stage. -/
theorem stage_head (D : Bytes) (x y : UInt8) (s : Bytes) (hx : x ∈ [(110 : UInt8), 114, 116, 40, 41]) (hD : x ∉ D)
    (h : y ≠ x ∨ bad x = false) : (stage D (y :: s)).head? ≠ some x := by
  have h92 : (92 : UInt8) ≠ x := by rintro rfl; revert hx; decide
  by_cases hy : y = 92
  · subst hy
    cases s with
    | nil => simp [stage, h92]
    | cons z s =>
      rw [stage, if_pos rfl]
      split <;> simpa using h92
  · rw [stage_other D y s hy]
    cases hl : letter y with
    | none =>
      simp only [List.cons_append, List.nil_append, List.head?_cons, ne_eq, Option.some.injEq]
      rintro rfl
      rcases h with h | h
      · exact h rfl
      · simp only [List.mem_cons, List.not_mem_nil, or_false] at hx
        rcases hx with rfl | rfl | rfl | rfl | rfl <;> revert h hl <;> decide
    | some z =>
      have := letter_mem hl
      simp only
      split
      · simp only [List.cons_append, List.nil_append, List.head?_cons, ne_eq, Option.some.injEq]
        rintro rfl
        rename_i hz
        simp only [List.mem_cons, List.not_mem_nil, or_false] at hx
        rcases hx with rfl | rfl | rfl | rfl | rfl
        · simp [letter] at hl
        · simp [letter] at hl
        · simp [letter] at hl
        · have : z = 40 := by simpa [letter] using hl.symm
          subst this; exact hD hz
        · have : z = 41 := by simpa [letter] using hl.symm
          subst this; exact hD hz
      · simpa using h92

theorem stage_step (D : Bytes) (x : UInt8) (hx : x ∈ [(110 : UInt8), 114, 116, 40, 41]) (hD : x ∉ D) (s : Bytes) :
    replaceFrom [92, x] [ctrl x] 0 (stage D s) = stage (x :: D) s := by
  have hx92 : x ≠ 92 := by rintro rfl; revert hx; decide
  induction h : s.length using Nat.strongRecOn generalizing s with
  | _ n ih =>
  subst h
  cases s with
  | nil => rfl
  | cons c s =>
    by_cases hc : c = 92
    · subst hc
      cases s with
      | nil =>
        rw [stage_bs _ _ (by simp), stage_bs _ _ (by simp), stage, stage,
          replace_miss _ _ _ (by simp; exact fun e => hx92 e.symm), replace_miss _ _ _ (by simp)]
        rfl
      | cons y s =>
        have ih1 := ih s.length (by simp; omega) s rfl
        have ih2 := ih (y :: s).length (by simp) (y :: s) rfl
        by_cases hy : y ∈ D ∧ bad y = true
        · rw [stage_bad D y s hy, stage_bad (x :: D) y s ⟨by simp [hy.1], hy.2⟩]
          obtain ⟨b1, b2, b3⟩ := bad_ctrl hy.2
          rw [replace_miss, replace_other, ih1]
          · rintro e; rw [e] at b1; revert b1; decide
          · simp only [List.head?_cons, ne_eq, Option.some.injEq]
            intro e
            rw [e] at b1
            simp only [List.mem_cons, List.not_mem_nil, or_false] at hx b1
            rcases hx with rfl | rfl | rfl | rfl | rfl <;> revert b1 <;> decide
        · rw [stage_bs D (y :: s) (by intro y' s' e; simp at e; obtain ⟨rfl, rfl⟩ := e; exact hy)]
          rw [replace_miss _ _ _ (by simp; exact fun e => hx92 e.symm)]
          by_cases hyx : y = x ∧ bad x = true
          · obtain ⟨rfl, hbx⟩ := hyx
            rw [stage_bad (y :: D) y s ⟨by simp, hbx⟩]
            obtain ⟨b1, b2, b3⟩ := bad_ctrl hbx
            rw [stage_other D y s b3, b2]
            simp only [List.cons_append, List.nil_append]
            rw [replace_hit, ih1]
          · rw [replace_miss _ _ _ (stage_head D x y s hx hD (by
              by_cases e : y = x
              · right; simpa [e] using hyx
              · left; exact e)), ih2, stage_bs]
            intro y' s' e
            simp only [List.cons.injEq] at e
            obtain ⟨rfl, rfl⟩ := e
            rintro ⟨e1, e2⟩
            simp only [List.mem_cons] at e1
            rcases e1 with rfl | e1
            · exact hyx ⟨rfl, e2⟩
            · exact hy ⟨e1, e2⟩
    · rw [stage_other D c s hc, stage_other _ c s hc]
      have ih1 := ih s.length (by simp) s rfl
      cases hl : letter c with
      | none =>
        simp only [List.cons_append, List.nil_append]
        rw [replace_other _ _ _ _ hc, ih1]
      | some z =>
        obtain ⟨z1, z2, z3⟩ := letter_mem hl
        simp only
        by_cases hz : z ∈ D
        · rw [if_pos hz, if_pos (by simp [hz])]
          simp only [List.cons_append, List.nil_append]
          rw [replace_other _ _ _ _ hc, ih1]
        · rw [if_neg hz]
          by_cases hzx : z = x
          · subst hzx
            rw [if_pos (by simp)]
            simp only [List.cons_append, List.nil_append]
            rw [replace_hit, ih1, z2]
          · rw [if_neg (by simp [hz, hzx])]
            simp only [List.cons_append, List.nil_append]
            rw [replace_miss _ _ _ (by simpa using hzx), replace_other _ _ _ _ (by rintro rfl; revert z1; decide), ih1]

theorem stage_nil (s : Bytes) : stage [] s = s.flatMap escByte := by
  induction s with
  | nil => rfl
  | cons c s ih =>
    rw [List.flatMap_cons, ← ih]
    by_cases hc : c = 92
    · subst hc
      rw [stage_bs _ _ (by simp)]; rfl
    · rw [stage_other _ _ _ hc]
      congr 1
      unfold letter escByte
      rw [if_neg hc]
      by_cases h1 : c = 10
      · subst h1; rfl
      by_cases h2 : c = 13
      · subst h2; rfl
      by_cases h3 : c = 9
      · subst h3; rfl
      by_cases h4 : c = 40
      · subst h4; rfl
      by_cases h5 : c = 41
      · subst h5; rfl
      simp [h1, h2, h3, h4, h5]

theorem mangled_other (c : UInt8) (s : Bytes) (h : c ≠ 92) : mangled (c :: s) = c :: mangled s := by
  rw [mangled]
  · intro s' e; exact absurd e h
  · intro s' e; exact absurd e h
  · intro s' e; exact absurd e h

theorem mangled_bs (s : Bytes) (h : ∀ y s', s = y :: s' → bad y = false) : mangled (92 :: s) = 92 :: mangled s := by
  cases s with
  | nil => rfl
  | cons y s =>
    have := h y s rfl
    simp only [bad, Bool.or_eq_false_iff, beq_eq_false_iff_ne] at this
    rw [mangled]
    · intro s' _ e; simp at e; exact this.1.1 e.1
    · intro s' _ e; simp at e; exact this.1.2 e.1
    · intro s' _ e; simp at e; exact this.2 e.1

theorem stage_last (D : Bytes) (hD : ∀ x ∈ [(110 : UInt8), 114, 116, 40, 41], x ∈ D) (s : Bytes) :
    replaceFrom [92, 92] [92] 0 (stage D s) = mangled s := by
  induction h : s.length using Nat.strongRecOn generalizing s with
  | _ n ih =>
  subst h
  cases s with
  | nil => rfl
  | cons c s =>
    by_cases hc : c = 92
    · subst hc
      by_cases hy : ∃ y s', s = y :: s' ∧ bad y = true
      · obtain ⟨y, s', rfl, hb⟩ := hy
        have hyD : y ∈ D := by
          apply hD
          simp only [bad, Bool.or_eq_true, beq_iff_eq] at hb
          rcases hb with (rfl | rfl) | rfl <;> decide
        rw [stage_bad D y s' ⟨hyD, hb⟩]
        obtain ⟨b1, b2, b3⟩ := bad_ctrl hb
        have hn : ctrl y ≠ 92 := by intro e; rw [e] at b1; revert b1; decide
        rw [replace_miss _ _ _ (by simpa using hn), replace_other _ _ _ _ hn, ih s'.length (by simp; omega) s' rfl]
        simp only [bad, Bool.or_eq_true, beq_iff_eq] at hb
        rcases hb with (rfl | rfl) | rfl <;> rfl
      · rw [stage_bs D s, mangled_bs s, replace_hit, ih s.length (by simp) s rfl]
        · intro y s' e
          cases hb : bad y with
          | false => rfl
          | true => exact absurd ⟨y, s', e, hb⟩ hy
        · rintro y s' e ⟨_, h2⟩; exact hy ⟨y, s', e, h2⟩
    · rw [stage_other D c s hc, mangled_other c s hc]
      have : (match letter c with
          | some x => if x ∈ D then [c] else [92, x]
          | none => [c]) = [c] := by
        cases hl : letter c with
        | none => rfl
        | some z =>
          have := hD z (letter_mem hl).1
          simp [this]
      rw [this, List.cons_append, List.nil_append, replace_other _ _ _ _ hc, ih s.length (by simp) s rfl]

/-- The exact effect of escaping and unescaping. -/
theorem unescape_escape (s : Bytes) : unescapePDFString (s.flatMap escByte) = mangled s := by
  rw [← stage_nil]
  unfold unescapePDFString replaceAll
  have h1 := stage_step [] 110 (by decide) (by decide) s
  have h2 := stage_step [110] 114 (by decide) (by decide) s
  have h3 := stage_step [114, 110] 116 (by decide) (by decide) s
  have h4 := stage_step [116, 114, 110] 40 (by decide) (by decide) s
  have h5 := stage_step [40, 116, 114, 110] 41 (by decide) (by decide) s
  have h6 := stage_last [41, 40, 116, 114, 110] (by decide) s
  simp only [show ctrl 110 = 10 from rfl, show ctrl 114 = 13 from rfl, show ctrl 116 = 9 from rfl,
    show ctrl 40 = 40 from rfl, show ctrl 41 = 41 from rfl] at h1 h2 h3 h4 h5
  simp only [h1, h2, h3, h4, h5, h6]

/-- A text is unchanged exactly when it has no backslash followed by n, r or t. -/
theorem mangled_eq_iff (s : Bytes) :
    mangled s = s ↔ ∀ u x v, s = u ++ 92 :: x :: v → x ≠ 110 ∧ x ≠ 114 ∧ x ≠ 116 := by
  induction h : s.length using Nat.strongRecOn generalizing s with
  | _ n ih =>
  subst h
  cases s with
  | nil => simp [mangled]
  | cons c s =>
    by_cases hb : c = 92 ∧ ∃ y s', s = y :: s' ∧ bad y = true
    · obtain ⟨rfl, y, s', rfl, hb⟩ := hb
      constructor
      · intro h
        simp only [bad, Bool.or_eq_true, beq_iff_eq] at hb
        rcases hb with (rfl | rfl) | rfl <;> simp [mangled] at h
      · intro h
        have := h [] y s' rfl
        simp [bad, this] at hb
    · have hm : mangled (c :: s) = c :: mangled s := by
        by_cases hc : c = 92
        · subst hc
          apply mangled_bs
          intro y s' e
          cases hbb : bad y with
          | false => rfl
          | true => exact absurd ⟨rfl, y, s', e, hbb⟩ hb
        · exact mangled_other c s hc
      rw [hm, List.cons.injEq]
      simp only [true_and]
      rw [ih s.length (by simp) s rfl]
      constructor
      · intro h u x v e
        cases u with
        | nil =>
          simp only [List.nil_append, List.cons.injEq] at e
          obtain ⟨rfl, rfl⟩ := e
          have : bad x = false := by
            cases hbb : bad x with
            | false => rfl
            | true => exact absurd ⟨rfl, x, v, rfl, hbb⟩ hb
          simp only [bad, Bool.or_eq_false_iff, beq_eq_false_iff_ne] at this
          exact ⟨this.1.1, this.1.2, this.2⟩
        | cons a u =>
          simp only [List.cons_append, List.cons.injEq] at e
          exact h u x v e.2
      · intro h u x v e
        exact h (c :: u) x v (by simp [e])

/-- On valid UTF-8 both escaping functions agree. -/
theorem escRune_eq (c : Char) : escRune c.toNat = (String.utf8EncodeChar c).flatMap escByte := by
  rw [← writeRune_char]
  by_cases h : 0x80 ≤ c.toNat
  · have h2 : (writeRune c.toNat).flatMap escByte = writeRune c.toNat := by
      have := writeRune_high _ h
      generalize writeRune c.toNat = l at this
      induction l with
      | nil => rfl
      | cons b l ih =>
        rw [List.flatMap_cons, ih (fun d hd => this d (by simp [hd]))]
        have hb := high_plain b (this b (by simp))
        have hb2 : b ≠ 10 ∧ b ≠ 9 := by
          have := this b (by simp)
          rw [UInt8.le_iff_toNat_le] at this
          constructor <;> · rintro rfl; revert this; decide
        simp [escByte, hb, hb2]
    rw [h2]
    unfold escRune
    simp only [show ¬ c.toNat = 40 by omega, show ¬ c.toNat = 41 by omega, show ¬ c.toNat = 92 by omega,
      show ¬ c.toNat = 10 by omega, show ¬ c.toNat = 13 by omega, show ¬ c.toNat = 9 by omega, if_false]
  · have : ∀ n, n < 128 → escRune n = (writeRune n).flatMap escByte := by decide +kernel
    exact this _ (by omega)

theorem escapePDFString_utf8 (t : List Char) : escapePDFString (utf8 t) = (utf8 t).flatMap escByte := by
  unfold escapePDFString
  rw [runes_utf8]
  unfold utf8
  rw [List.flatMap_assoc, List.flatMap_map]
  congr 1
  funext c
  exact escRune_eq c

/-! ### Octal escapes and names -/

theorem reads_oct (r : Nat) (h : 127 < r) (h2 : r < 512) : Reads (b!"\\" ++ oct3 r) [UInt8.ofNat r] := by
  have key : ∀ r, r < 512 → 127 < r → oct3 r = [UInt8.ofNat (48 + r / 64), UInt8.ofNat (48 + r / 8 % 8),
      UInt8.ofNat (48 + r % 8)] := by decide +kernel
  have key2 : ∀ n : Nat, n < 8 → isOct (UInt8.ofNat (48 + n)) = true ∧ (UInt8.ofNat (48 + n)).toNat = 48 + n := by decide
  have key3 : ∀ n : Nat, n < 8 → UInt8.ofNat (48 + n) ≠ 110 ∧ UInt8.ofNat (48 + n) ≠ 114 ∧ UInt8.ofNat (48 + n) ≠ 116 ∧
    UInt8.ofNat (48 + n) ≠ 98 ∧ UInt8.ofNat (48 + n) ≠ 102 ∧ UInt8.ofNat (48 + n) ≠ 10 ∧ UInt8.ofNat (48 + n) ≠ 13 := by
    decide
  intro s
  rw [key r h2 h]
  obtain ⟨a1, a2⟩ := key2 (r / 64) (by omega)
  obtain ⟨b1, b2⟩ := key2 (r / 8 % 8) (by omega)
  obtain ⟨c1, c2⟩ := key2 (r % 8) (by omega)
  obtain ⟨n1, n2, n3, n4, n5, n6, n7⟩ := key3 (r / 64) (by omega)
  simp only [List.cons_append, List.nil_append]
  rw [litFrom, show litStep .plain 0 92 = ([], some (.esc, 0)) from rfl]
  simp only []
  rw [litFrom]
  simp only [litStep, n1, n2, n3, n4, n5, n6, n7, if_false, a1, if_true]
  rw [litFrom]
  simp only [litStep, b1, if_true, show ¬ (1 = 2) by decide, if_false]
  rw [litFrom]
  simp only [litStep, c1, if_true, a2, b2, c2, Option.map_map]
  have e : 8 * (8 * (48 + r / 64 - 48) + (48 + r / 8 % 8 - 48)) + (48 + r % 8 - 48) = r := by omega
  simp only [e]
  cases litFrom .plain 0 s <;> simp

theorem reads_escRuneOct (r : Nat) (h : r < 512) : Reads (escRuneOct r) [UInt8.ofNat r] := by
  unfold escRuneOct
  split
  · subst_vars; exact reads_map _ _ (by decide)
  split
  · subst_vars; exact reads_map _ _ (by decide)
  split
  · subst_vars; exact reads_map _ _ (by decide)
  split
  · subst_vars; exact reads_map _ _ (by decide)
  split
  · subst_vars; exact reads_map _ _ (by decide)
  split
  · subst_vars; exact reads_map _ _ (by decide)
  split
  · exact reads_oct r (by omega) h
  · have hw : writeRune r = [UInt8.ofNat r] := by unfold writeRune; rw [if_pos (by omega)]
    have := reads_writeRune r (by omega)
    rw [hw] at this ⊢
    exact this

/-- A name token that the reader turns into one byte whatever follows. -/
theorem name_escRune (r : Nat) (h : r < 256) (h2 : r ≠ 0 ∧ r ≠ 9 ∧ r ≠ 10 ∧ r ≠ 12 ∧ r ≠ 13) (s : Bytes) :
    nameFrom (escNameRune r ++ s) = (UInt8.ofNat r :: (nameFrom s).1, (nameFrom s).2) := by
  have key : ∀ r, r < 256 → r ≠ 0 ∧ r ≠ 9 ∧ r ≠ 10 ∧ r ≠ 12 ∧ r ≠ 13 →
      (escNameRune r = [35, hexUp (r / 16), hexUp (r % 16)] ∧ hexDigit (hexUp (r / 16)) = some (r / 16) ∧
        hexDigit (hexUp (r % 16)) = some (r % 16)) ∨
      (escNameRune r = [UInt8.ofNat r] ∧ UInt8.ofNat r ≠ 35 ∧ pdfWs (UInt8.ofNat r) = false ∧
        pdfDelim (UInt8.ofNat r) = false) := by decide +kernel
  rcases key r h h2 with ⟨e, d1, d2⟩ | ⟨e, n1, n2, n3⟩
  · rw [e]
    simp only [List.cons_append, List.nil_append]
    rw [nameFrom, d1, d2]
    simp only
    rw [show 16 * (r / 16) + r % 16 = r by omega]
  · rw [e]
    simp only [List.cons_append, List.nil_append]
    rw [nameFrom]
    · simp [n2, n3]
    · intro h l s' e1 e2; exact n1 e1

end Pdfer.Strings
