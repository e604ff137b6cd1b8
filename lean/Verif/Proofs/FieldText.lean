import Verif.Proofs.Forms
import Verif.Proofs.Merge
import Verif.Proofs.Strings

/-! Reading back the fields that FieldBuilder writes. -/

namespace Pdfer.Forms

open Pdfer.Go Pdfer.Strings Pdfer.Manipulate Pdfer.Spec.Forms

/-- A matcher that begins with `/K`. -/
def KeyRe {α : Type} (K : Bytes) (p : Bytes → Option α) : Prop := ∀ s, reLit (47 :: K) s = none → p s = none

theorem keyRe_info (K : Bytes) : KeyRe K (reInfo (47 :: K)) := fun s h => by simp [reInfo, h]
theorem keyRe_name (K : Bytes) : KeyRe K (reKeyName (47 :: K)) := fun s h => by simp [reKeyName, h]
theorem keyRe_num (K : Bytes) : KeyRe K (reKeyNum (47 :: K)) := fun s h => by simp [reKeyNum, h]
theorem keyRe_arr (K : Bytes) : KeyRe K (reKeyArr (47 :: K)) := fun s h => by simp [reKeyArr, h]

theorem KeyRe.skip {α : Type} {K : Bytes} {p : Bytes → Option α} (h : KeyRe K p) {a : Bytes} (ha : (47 : UInt8) ∉ a) (s : Bytes) :
    searchWith p (a ++ s) = searchWith p s := by
  apply searchWith_skip
  intro c hc t
  apply h
  apply reLit_ne
  intro e; subst e; exact ha hc

theorem KeyRe.none {α : Type} {K : Bytes} {p : Bytes → Option α} (h : KeyRe K p) {a : Bytes} (ha : (47 : UInt8) ∉ a) :
    searchWith p a = none := by
  have := h.skip ha []
  rw [List.append_nil] at this
  rw [this]
  exact h _ rfl

theorem prefix_space {K k r : Bytes} (h32 : (32 : UInt8) ∉ K) (h : K <+: k ++ 32 :: r) : K <+: k := by
  obtain ⟨t, ht⟩ := h
  rcases List.append_eq_append_iff.1 ht with ⟨u, hu, _⟩ | ⟨u, hu, hu2⟩
  · exact ⟨u, hu.symm⟩
  · cases u with
    | nil => simp only [List.append_nil] at hu; exact ⟨[], by simp [hu]⟩
    | cons c u =>
      simp only [List.cons_append, List.cons.injEq] at hu2
      exfalso; apply h32; rw [hu]; simp [hu2.1]

theorem reLit_other {K k r : Bytes} (h32 : (32 : UInt8) ∉ K) (h : ¬ K <+: k) : reLit (47 :: K) (47 :: (k ++ 32 :: r)) = none := by
  apply Classical.byContradiction
  intro hn
  have := reLit_prefix hn
  rw [List.cons_prefix_cons] at this
  exact h (prefix_space h32 this.2)

theorem searchWith_step {α : Type} {p : Bytes → Option α} {c : UInt8} {s : Bytes} (h : p (c :: s) = none) :
    searchWith p (c :: s) = searchWith p s := by
  rw [searchWith, h]

theorem KeyRe.skipKey {α : Type} {K k b : Bytes} {p : Bytes → Option α} (h : KeyRe K p) (h32 : (32 : UInt8) ∉ K)
    (hk : ¬ K <+: k) (hk47 : (47 : UInt8) ∉ k) (hb : (47 : UInt8) ∉ b) (s : Bytes) :
    searchWith p (32 :: 47 :: (k ++ 32 :: b) ++ s) = searchWith p s := by
  have h0 : searchWith p ([32] ++ (47 :: (k ++ 32 :: b) ++ s)) = searchWith p (47 :: (k ++ 32 :: b) ++ s) :=
    h.skip (by decide) _
  rw [show (32 :: 47 :: (k ++ 32 :: b) ++ s) = [32] ++ (47 :: (k ++ 32 :: b) ++ s) from rfl, h0]
  rw [List.cons_append, searchWith_step (h _ ?_)]
  · exact h.skip (by simp only [List.mem_append, List.mem_cons, not_or]; exact ⟨hk47, by decide, hb⟩) s
  · rw [List.append_assoc, List.cons_append]
    exact reLit_other h32 hk

/-- One optional entry of a field's dictionary. -/
def part (c : Prop) [Decidable c] (k b : Bytes) : Bytes := if c then 32 :: 47 :: (k ++ 32 :: b) else []

theorem KeyRe.skipPart {α : Type} {K k b : Bytes} {p : Bytes → Option α} (h : KeyRe K p) (c : Prop) [Decidable c]
    (h32 : (32 : UInt8) ∉ K) (hk : ¬ K <+: k) (hk47 : (47 : UInt8) ∉ k) (hb : (47 : UInt8) ∉ b) (s : Bytes) :
    searchWith p (part c k b ++ s) = searchWith p s := by
  unfold part
  split
  · exact h.skipKey h32 hk hk47 hb s
  · rfl

theorem KeyRe.atPart {α : Type} {K b : Bytes} {p : Bytes → Option α} (h : KeyRe K p) (c : Prop) [Decidable c] (s : Bytes)
    (r : α) (hp : c → p (47 :: (K ++ 32 :: b) ++ s) = some r) :
    searchWith p (part c K b ++ s) = if c then some r else searchWith p s := by
  unfold part
  by_cases hc : c
  · rw [if_pos hc, if_pos hc]
    rw [show (32 :: 47 :: (K ++ 32 :: b) ++ s) = [32] ++ (47 :: (K ++ 32 :: b) ++ s) from rfl, h.skip (by decide)]
    exact searchWith_here (hp hc)
  · rw [if_neg hc, if_neg hc]; rfl

/-! Escaping plain text changes nothing. -/

theorem plain_ascii {c : UInt8} (h : PlainChar c) : c < 0x80 := by
  have := h.2.1
  rw [UInt8.lt_iff_toNat_lt] at *
  have e1 : (127 : UInt8).toNat = 127 := rfl
  have e2 : (0x80 : UInt8).toNat = 128 := rfl
  omega

theorem runes_plain (s : Bytes) (h : ∀ c ∈ s, PlainChar c) : runes s = s.map UInt8.toNat := by
  unfold runes
  induction s with
  | nil => rfl
  | cons c s ih =>
    have hc := plain_ascii (h c (by simp))
    simp only [runesFrom, decodeRune, if_pos hc, List.map_cons]
    rw [ih (fun d hd => h d (by simp [hd]))]

theorem escRuneOct_plain (c : UInt8) (h : PlainChar c) : escRuneOct c.toNat = [c] := by
  obtain ⟨h1, h2, h3, h4, h5, h6, h7, h8, h9, h10⟩ := h
  have hn : ∀ d : UInt8, c ≠ d → c.toNat ≠ d.toNat := fun d hd e => hd (UInt8.toNat_inj.1 e)
  have hlo : 32 ≤ c.toNat := by rw [UInt8.le_iff_toNat_le] at h1; exact h1
  have hhi : c.toNat < 127 := by rw [UInt8.lt_iff_toNat_lt] at h2; exact h2
  unfold escRuneOct
  have e1 : c.toNat ≠ 92 := hn 92 h9
  have e2 : c.toNat ≠ 40 := hn 40 h3
  have e3 : c.toNat ≠ 41 := hn 41 h4
  rw [if_neg e1, if_neg e2, if_neg e3, if_neg (by omega), if_neg (by omega), if_neg (by omega),
    if_neg (by omega)]
  unfold writeRune
  rw [if_pos (by omega)]
  simp

theorem escape_plain (s : Bytes) (h : ∀ c ∈ s, PlainChar c) : escapeFieldValue s = s := by
  unfold escapeFieldValue
  rw [runes_plain s h, List.flatMap_map]
  induction s with
  | nil => rfl
  | cons c s ih =>
    rw [List.flatMap_cons, escRuneOct_plain c (h c (by simp)), ih (fun d hd => h d (by simp [hd]))]; rfl

theorem plain_not {s : Bytes} (h : ∀ c ∈ s, PlainChar c) (d : UInt8) (hd : ¬ PlainChar d) : d ∉ s := fun hm => hd (h d hm)

theorem plain47 {s : Bytes} (h : ∀ c ∈ s, PlainChar c) : (47 : UInt8) ∉ s := plain_not h 47 (fun h => h.2.2.2.2.1 rfl)
theorem plain41 {s : Bytes} (h : ∀ c ∈ s, PlainChar c) : (41 : UInt8) ∉ s := plain_not h 41 (fun h => h.2.2.2.1 rfl)
theorem plain93 {s : Bytes} (h : ∀ c ∈ s, PlainChar c) : (93 : UInt8) ∉ s := plain_not h 93 (fun h => h.2.2.2.2.2.2.2.2.2 rfl)
theorem plain40 {s : Bytes} (h : ∀ c ∈ s, PlainChar c) : (40 : UInt8) ∉ s := plain_not h 40 (fun h => h.2.2.1 rfl)

theorem takeWhile_ne {d : UInt8} {v rest : Bytes} (h : d ∉ v) : (v ++ d :: rest).takeWhile (· ≠ d) = v := by
  apply takeWhile_all
  · intro c hc; simp; intro e; subst e; exact h hc
  · intro c hc; simp at hc; simp [hc]

theorem dropWhile_ne {d : UInt8} {v rest : Bytes} (h : d ∉ v) : (v ++ d :: rest).dropWhile (· ≠ d) = d :: rest := by
  apply dropWhile_all
  · intro c hc; simp; intro e; subst e; exact h hc
  · intro c hc; simp at hc; simp [hc]

theorem reInfo_here (K v rest : Bytes) (h : (41 : UInt8) ∉ v) :
    reInfo (47 :: K) (47 :: (K ++ 32 :: (b!"(" ++ v ++ b!")")) ++ rest) = some v := by
  unfold reInfo
  rw [show 47 :: (K ++ 32 :: (b!"(" ++ v ++ b!")")) ++ rest = (47 :: K) ++ (32 :: 40 :: (v ++ 41 :: rest)) by simp, reLit_append,
    Option.bind_some]
  rw [show reSp0 (32 :: 40 :: (v ++ 41 :: rest)) = b!"(" ++ (v ++ 41 :: rest) by simp [reSp0, reSpace]]
  rw [reLit_append, Option.bind_some, if_pos (by simp), takeWhile_ne h]

theorem reKeyArr_here (K v rest : Bytes) (h : (93 : UInt8) ∉ v) :
    reKeyArr (47 :: K) (47 :: (K ++ 32 :: (b!"[" ++ v ++ b!"]")) ++ rest) = some v := by
  unfold reKeyArr
  rw [show 47 :: (K ++ 32 :: (b!"[" ++ v ++ b!"]")) ++ rest = (47 :: K) ++ (32 :: 91 :: (v ++ 93 :: rest)) by simp, reLit_append,
    Option.bind_some]
  rw [show reSp0 (32 :: 91 :: (v ++ 93 :: rest)) = b!"[" ++ (v ++ 93 :: rest) by simp [reSp0, reSpace]]
  rw [reLit_append, Option.bind_some, if_pos (by simp), takeWhile_ne h]

theorem reKeyNum_here (K rest : Bytes) (n : Nat) (h : ∀ c, rest.head? = some c → isDigit c = false) :
    reKeyNum (47 :: K) (47 :: (K ++ 32 :: natDec n) ++ rest) = some (natDec n) := by
  have := reKeyNum_natDec (key := 47 :: K) (n := n) (s := rest) h
  simpa using this

/-! The option list. -/

theorem findAll_skip {α : Type} (p : Bytes → Option (α × Bytes)) (a s : Bytes) : findAll p a.length (a ++ s) = findAll p 0 s := by
  induction a with
  | nil => rfl
  | cons c a ih => simpa [findAll] using ih

theorem findAll_here {α : Type} {p : Bytes → Option (α × Bytes)} {m rest : Bytes} {r : α} (hm : m ≠ [])
    (h : p (m ++ rest) = some (r, rest)) : findAll p 0 (m ++ rest) = r :: findAll p 0 rest := by
  cases m with
  | nil => exact absurd rfl hm
  | cons c m =>
    rw [List.cons_append] at h ⊢
    rw [findAll, h]
    simp only [List.length_append, Nat.add_sub_cancel]
    rw [findAll_skip]

theorem findAll_miss {α : Type} {p : Bytes → Option (α × Bytes)} {c : UInt8} {s : Bytes} (h : p (c :: s) = none) :
    findAll p 0 (c :: s) = findAll p 0 s := by
  rw [findAll, h]

theorem reParen_here {v : Bytes} (h : (41 : UInt8) ∉ v) (rest : Bytes) :
    reParen ((40 :: v ++ [41]) ++ rest) = some (v, rest) := by
  unfold reParen
  rw [show (40 :: v ++ [41]) ++ rest = b!"(" ++ (v ++ 41 :: rest) by simp, reLit_append, Option.bind_some, if_pos (by simp),
    takeWhile_ne h, dropWhile_ne h]
  rfl

theorem options_read (os : List Bytes) (h : ∀ o ∈ os, ∀ c ∈ o, PlainChar c) : findAll reParen 0 (optionTexts os) = os := by
  induction os with
  | nil => rfl
  | cons o os ih =>
    have ho := h o (by simp)
    have e := escape_plain o ho
    cases os with
    | nil =>
      rw [optionTexts, e]
      have := findAll_here (m := 40 :: o ++ [41]) (rest := []) (by simp) (reParen_here (plain41 ho) [])
      simpa [findAll] using this
    | cons o2 os =>
      rw [show optionTexts (o :: o2 :: os) = (40 :: o ++ [41]) ++ (32 :: optionTexts (o2 :: os)) by
        simp [optionTexts, e]]
      rw [findAll_here (by simp) (reParen_here (plain41 ho) _), findAll_miss (by simp [reParen, reLit]), ih]
      intro x hx
      exact h x (by simp [hx])

theorem options_free {d : UInt8} (hd : d ≠ 40 ∧ d ≠ 41 ∧ d ≠ 32 ∧ ¬ PlainChar d) (os : List Bytes)
    (h : ∀ o ∈ os, ∀ c ∈ o, PlainChar c) : d ∉ optionTexts os := by
  induction os with
  | nil => simp [optionTexts]
  | cons o os ih =>
    have ho := h o (by simp)
    have e := escape_plain o ho
    have hno := plain_not ho d hd.2.2.2
    have hrest := ih (fun x hx => h x (by simp [hx]))
    cases os with
    | nil => simp [optionTexts, e, hd, hno]
    | cons o2 os =>
      simp only [optionTexts, e, List.mem_append, List.mem_cons, List.not_mem_nil, or_false, not_or]
      exact ⟨⟨⟨hd.1, hno⟩, ⟨hd.2.1, hd.2.2.1⟩⟩, hrest⟩

theorem options_paren (os : List Bytes) (h : os ≠ []) : contains (optionTexts os) b!"(" = true := by
  cases os with
  | nil => exact absurd rfl h
  | cons o os =>
    cases os <;> simp [optionTexts, contains, index]

/-- The conditions under which a field survives: everything is plain text, and the numbers fit. -/
structure PlainField (f : FieldDef) : Prop where
  type : f.type ∈ [b!"Tx", b!"Btn", b!"Ch", b!"Sig"]
  name : ∀ c ∈ f.name, PlainChar c
  rect : ∀ c ∈ f.rect, PlainChar c
  value : f.value ≠ .nil → ∀ c ∈ formatFieldValue f.value f.type, PlainChar c
  dflt : f.dflt ≠ .nil → ∀ c ∈ formatFieldValue f.dflt f.type, PlainChar c
  options : ∀ o ∈ f.options, ∀ c ∈ o, PlainChar c
  flags : f.flags ≤ 9223372036854775807
  maxLen : f.maxLen ≤ 9223372036854775807

/-- The text of a value that is given. -/
def shown (v : Val) (t : Bytes) : Bytes := if v = .nil then [] else formatFieldValue v t

theorem shown_plain {v : Val} {t : Bytes} (h : v ≠ .nil → ∀ c ∈ formatFieldValue v t, PlainChar c) : ∀ c ∈ shown v t, PlainChar c := by
  unfold shown
  split
  · simp
  · rename_i hv; exact h hv

theorem shown_ite (v : Val) (t : Bytes) : (if v ≠ .nil then some (shown v t) else none) = if v = .nil then none else some (formatFieldValue v t) := by
  unfold shown
  by_cases h : v = .nil <;> simp [h]

theorem part_shown (v : Val) (t k : Bytes) : part (v ≠ .nil) k (b!"(" ++ escapeFieldValue (formatFieldValue v t) ++ b!")") =
    part (v ≠ .nil) k (b!"(" ++ escapeFieldValue (shown v t) ++ b!")") := by
  unfold part shown
  by_cases h : v = .nil <;> simp [h]

theorem fieldText_parts (f : FieldDef) : fieldText f = b!"<< /FT /" ++ (f.type ++
    (part (f.name ≠ []) b!"T" (b!"(" ++ escapeFieldValue f.name ++ b!")") ++
    (part (f.rect ≠ []) b!"Rect" (b!"[" ++ f.rect ++ b!"]") ++
    (part (f.flags ≠ 0) b!"Ff" (natDec f.flags) ++
    (part (f.value ≠ .nil) b!"V" (b!"(" ++ escapeFieldValue (shown f.value f.type) ++ b!")") ++
    (part (f.dflt ≠ .nil) b!"DV" (b!"(" ++ escapeFieldValue (shown f.dflt f.type) ++ b!")") ++
    (part (f.maxLen > 0) b!"MaxLen" (natDec f.maxLen) ++
    (part (f.options ≠ []) b!"Opt" (b!"[" ++ optionTexts f.options ++ b!"]") ++ b!" >>")))))))) := by
  rw [← part_shown, ← part_shown]
  unfold fieldText part
  simp only [List.append_assoc]
  congr 2

theorem part_space {c : Prop} [Decidable c] {k b s : Bytes} (h : ∃ r, s = 32 :: r) : ∃ r, part c k b ++ s = 32 :: r := by
  unfold part
  split
  · exact ⟨_, rfl⟩
  · obtain ⟨r, rfl⟩ := h; exact ⟨r, rfl⟩

theorem space_not_digit {s : Bytes} (h : ∃ r, s = 32 :: r) : ∀ c, s.head? = some c → isDigit c = false := by
  obtain ⟨r, rfl⟩ := h
  intro c hc; simp at hc; subst hc; decide

theorem skipHead {α : Type} {K : Bytes} {p : Bytes → Option α} (h : KeyRe K p) {pre type rest : Bytes} (hpre : (47 : UInt8) ∉ pre)
    (h32 : (32 : UInt8) ∉ K) (hk : ¬ K <+: b!"FT") (ht : (47 : UInt8) ∉ type) (hp : p (47 :: (type ++ rest)) = none) :
    searchWith p (pre ++ (b!"<< /FT /" ++ (type ++ rest))) = searchWith p rest := by
  rw [h.skip hpre]
  rw [show b!"<< /FT /" ++ (type ++ rest) = b!"<< " ++ (b!"/FT /" ++ (type ++ rest)) from rfl, h.skip (by decide)]
  rw [show b!"/FT /" ++ (type ++ rest) = 47 :: (b!"FT" ++ 32 :: (47 :: (type ++ rest))) from rfl,
    searchWith_step (h _ (reLit_other h32 hk))]
  rw [show b!"FT" ++ 32 :: (47 :: (type ++ rest)) = b!"FT " ++ (47 :: (type ++ rest)) from rfl, h.skip (by decide),
    searchWith_step hp, h.skip ht]

theorem type_free {t : Bytes} (h : t ∈ [b!"Tx", b!"Btn", b!"Ch", b!"Sig"]) : (47 : UInt8) ∉ t := by
  revert t; decide

theorem type_other {K t rest : Bytes} (h : t ∈ [b!"Tx", b!"Btn", b!"Ch", b!"Sig"]) (h32 : (32 : UInt8) ∉ K)
    (hK : ∀ t ∈ [b!"Tx", b!"Btn", b!"Ch", b!"Sig"], ¬ K <+: t) (hr : ∃ r, rest = 32 :: r) :
    reLit (47 :: K) (47 :: (t ++ rest)) = none := by
  obtain ⟨r, rfl⟩ := hr
  exact reLit_other h32 (hK t h)

theorem type_T_info {t rest : Bytes} (h : t ∈ [b!"Tx", b!"Btn", b!"Ch", b!"Sig"]) (hr : ∃ r, rest = 32 :: r) :
    reInfo b!"/T" (47 :: (t ++ rest)) = none ∧ reKeyName b!"/T" (47 :: (t ++ rest)) = none := by
  obtain ⟨r, rfl⟩ := hr
  simp only [List.mem_cons, List.not_mem_nil, or_false] at h
  rcases h with rfl | rfl | rfl | rfl <;>
    simp [reInfo, reKeyName, reLit, reSp0, reSpace, List.isPrefixOf]

theorem type_word {t rest : Bytes} (h : t ∈ [b!"Tx", b!"Btn", b!"Ch", b!"Sig"]) (hr : ∃ r, rest = 32 :: r) :
    reKeyName b!"/FT" (b!"/FT /" ++ (t ++ rest)) = some t := by
  obtain ⟨r, rfl⟩ := hr
  simp only [List.mem_cons, List.not_mem_nil, or_false] at h
  rcases h with rfl | rfl | rfl | rfl <;>
    simp [reKeyName, reLit, reSp0, reSpace, List.isPrefixOf, reWord, isDigit]

theorem parse_field (f : FieldDef) (hf : PlainField f) (num gen : Int) (pre post : Bytes) (hpre : (47 : UInt8) ∉ pre)
    (hpost : (47 : UInt8) ∉ post) :
    parseAttrs num gen (pre ++ fieldText f ++ post) =
      { num := num, gen := gen, ft := f.type, t := f.name, tu := [], ff := f.flags,
        v := if f.value = .nil then .none else .str (formatFieldValue f.value f.type),
        dv := if f.dflt = .nil then none else some (formatFieldValue f.dflt f.type),
        maxLen := f.maxLen, opt := f.options } := by
  have hval := shown_plain hf.value
  have hdfl := shown_plain hf.dflt
  have en := escape_plain _ hf.name
  have ev := escape_plain _ hval
  have ed := escape_plain _ hdfl
  rw [fieldText_parts, en, ev, ed]
  have hend : (47 : UInt8) ∉ b!" >>" ++ post := by simp [hpost]
  have b7 : (47 : UInt8) ∉ b!"[" ++ optionTexts f.options ++ b!"]" := by
    have := options_free (d := 47) ⟨by decide, by decide, by decide, fun h => h.2.2.2.2.1 rfl⟩ f.options hf.options
    simp [this]
  have bp : ∀ v : Bytes, (∀ c ∈ v, PlainChar c) → (47 : UInt8) ∉ b!"(" ++ v ++ b!")" := fun v hv => by
    simp [plain47 hv]
  have bn : ∀ n : Nat, (47 : UInt8) ∉ natDec n := fun n => not_mem_natDec (c := 47) (by decide) n
  have br : (47 : UInt8) ∉ b!"[" ++ f.rect ++ b!"]" := by simp [plain47 hf.rect]
  simp only [List.append_assoc]
  generalize hs7 : part (f.options ≠ []) b!"Opt" (b!"[" ++ (optionTexts f.options ++ b!"]")) ++ (b!" >>" ++ post) = s7
  generalize hs6 : part (f.maxLen > 0) b!"MaxLen" (natDec f.maxLen) ++ s7 = s6
  generalize hs5 : part (f.dflt ≠ .nil) b!"DV" (b!"(" ++ (shown f.dflt f.type ++ b!")")) ++ s6 = s5
  generalize hs4 : part (f.value ≠ .nil) b!"V" (b!"(" ++ (shown f.value f.type ++ b!")")) ++ s5 = s4
  generalize hs3 : part (f.flags ≠ 0) b!"Ff" (natDec f.flags) ++ s4 = s3
  generalize hs2 : part (f.rect ≠ []) b!"Rect" (b!"[" ++ (f.rect ++ b!"]")) ++ s3 = s2
  generalize hs1 : part (f.name ≠ []) b!"T" (b!"(" ++ (f.name ++ b!")")) ++ s2 = s1
  simp only [← List.append_assoc] at hs7 hs6 hs5 hs4 hs3 hs2 hs1
  rw [List.append_assoc] at hs7
  have p7 : ∃ r, s7 = 32 :: r := hs7 ▸ part_space ⟨_, rfl⟩
  have p6 : ∃ r, s6 = 32 :: r := hs6 ▸ part_space p7
  have p5 : ∃ r, s5 = 32 :: r := hs5 ▸ part_space p6
  have p4 : ∃ r, s4 = 32 :: r := hs4 ▸ part_space p5
  have p3 : ∃ r, s3 = 32 :: r := hs3 ▸ part_space p4
  have p2 : ∃ r, s2 = 32 :: r := hs2 ▸ part_space p3
  have p1 : ∃ r, s1 = 32 :: r := hs1 ▸ part_space p2
  have hty := type_free hf.type
  -- skipping the other entries
  have k7 : ∀ {α : Type} {K : Bytes} {p : Bytes → Option α}, KeyRe K p → (32 : UInt8) ∉ K → ¬ K <+: b!"Opt" →
      searchWith p s7 = none := fun h h32 hk => by
    rw [← hs7, h.skipPart _ h32 hk (by decide) b7]; exact h.none hend
  have k6 : ∀ {α : Type} {K : Bytes} {p : Bytes → Option α}, KeyRe K p → (32 : UInt8) ∉ K → ¬ K <+: b!"MaxLen" →
      searchWith p s6 = searchWith p s7 := fun h h32 hk => by
    rw [← hs6, h.skipPart _ h32 hk (by decide) (bn _)]
  have k5 : ∀ {α : Type} {K : Bytes} {p : Bytes → Option α}, KeyRe K p → (32 : UInt8) ∉ K → ¬ K <+: b!"DV" →
      searchWith p s5 = searchWith p s6 := fun h h32 hk => by
    rw [← hs5, h.skipPart _ h32 hk (by decide) (bp _ hdfl)]
  have k4 : ∀ {α : Type} {K : Bytes} {p : Bytes → Option α}, KeyRe K p → (32 : UInt8) ∉ K → ¬ K <+: b!"V" →
      searchWith p s4 = searchWith p s5 := fun h h32 hk => by
    rw [← hs4, h.skipPart _ h32 hk (by decide) (bp _ hval)]
  have k3 : ∀ {α : Type} {K : Bytes} {p : Bytes → Option α}, KeyRe K p → (32 : UInt8) ∉ K → ¬ K <+: b!"Ff" →
      searchWith p s3 = searchWith p s4 := fun h h32 hk => by
    rw [← hs3, h.skipPart _ h32 hk (by decide) (bn _)]
  have k2 : ∀ {α : Type} {K : Bytes} {p : Bytes → Option α}, KeyRe K p → (32 : UInt8) ∉ K → ¬ K <+: b!"Rect" →
      searchWith p s2 = searchWith p s3 := fun h h32 hk => by
    rw [← hs2, h.skipPart _ h32 hk (by decide) br]
  have k1 : ∀ {α : Type} {K : Bytes} {p : Bytes → Option α}, KeyRe K p → (32 : UInt8) ∉ K → ¬ K <+: b!"T" →
      searchWith p s1 = searchWith p s2 := fun h h32 hk => by
    rw [← hs1, h.skipPart _ h32 hk (by decide) (bp _ hf.name)]
  have k0 : ∀ {α : Type} {K : Bytes} {p : Bytes → Option α}, KeyRe K p → (32 : UInt8) ∉ K → ¬ K <+: b!"FT" →
      (∀ t ∈ [b!"Tx", b!"Btn", b!"Ch", b!"Sig"], ¬ K <+: t) →
      searchWith p (pre ++ (b!"<< /FT /" ++ (f.type ++ s1))) = searchWith p s1 := fun h h32 hk hK =>
    skipHead h hpre h32 hk hty (h _ (type_other hf.type h32 hK p1))
  -- the type
  have aFT : searchWith (reKeyName b!"/FT") (pre ++ (b!"<< /FT /" ++ (f.type ++ s1))) = some f.type := by
    rw [(keyRe_name b!"FT").skip hpre, show b!"<< /FT /" ++ (f.type ++ s1) = b!"<< " ++ (b!"/FT /" ++ (f.type ++ s1)) from rfl,
      (keyRe_name b!"FT").skip (by decide)]
    exact searchWith_here (type_word hf.type p1)
  -- the name
  have aT : searchWith (reInfo b!"/T") (pre ++ (b!"<< /FT /" ++ (f.type ++ s1))) = if f.name ≠ [] then some f.name else none := by
    rw [skipHead (keyRe_info b!"T") hpre (by decide) (by decide) hty (type_T_info hf.type p1).1, ← hs1]
    rw [(keyRe_info b!"T").atPart _ _ _ (fun _ => reInfo_here b!"T" f.name s2 (plain41 hf.name)),
      k2 (keyRe_info b!"T") (by decide) (by decide), k3 (keyRe_info b!"T") (by decide) (by decide),
      k4 (keyRe_info b!"T") (by decide) (by decide), k5 (keyRe_info b!"T") (by decide) (by decide),
      k6 (keyRe_info b!"T") (by decide) (by decide), k7 (keyRe_info b!"T") (by decide) (by decide)]
  have aT2 : f.name = [] → searchWith (reKeyName b!"/T") (pre ++ (b!"<< /FT /" ++ (f.type ++ s1))) = none := by
    intro hn
    rw [skipHead (keyRe_name b!"T") hpre (by decide) (by decide) hty (type_T_info hf.type p1).2, ← hs1]
    rw [show part (f.name ≠ []) b!"T" (b!"(" ++ f.name ++ b!")") = [] by simp [part, hn], List.nil_append,
      k2 (keyRe_name b!"T") (by decide) (by decide), k3 (keyRe_name b!"T") (by decide) (by decide),
      k4 (keyRe_name b!"T") (by decide) (by decide), k5 (keyRe_name b!"T") (by decide) (by decide),
      k6 (keyRe_name b!"T") (by decide) (by decide), k7 (keyRe_name b!"T") (by decide) (by decide)]
  have aTU : searchWith (reInfo b!"/TU") (pre ++ (b!"<< /FT /" ++ (f.type ++ s1))) = none := by
    have h := keyRe_info b!"TU"
    rw [k0 h (by decide) (by decide) (by decide), k1 h (by decide) (by decide), k2 h (by decide) (by decide),
      k3 h (by decide) (by decide), k4 h (by decide) (by decide), k5 h (by decide) (by decide),
      k6 h (by decide) (by decide), k7 h (by decide) (by decide)]
  have aFf : searchWith (reKeyNum b!"/Ff") (pre ++ (b!"<< /FT /" ++ (f.type ++ s1))) =
      if f.flags ≠ 0 then some (natDec f.flags) else none := by
    have h := keyRe_num b!"Ff"
    rw [k0 h (by decide) (by decide) (by decide), k1 h (by decide) (by decide), k2 h (by decide) (by decide), ← hs3,
      h.atPart _ _ _ (fun _ => reKeyNum_here b!"Ff" s4 f.flags (space_not_digit p4)),
      k4 h (by decide) (by decide), k5 h (by decide) (by decide),
      k6 h (by decide) (by decide), k7 h (by decide) (by decide)]
  have aV : searchWith (reInfo b!"/V") (pre ++ (b!"<< /FT /" ++ (f.type ++ s1))) =
      if f.value ≠ .nil then some (shown f.value f.type) else none := by
    have h := keyRe_info b!"V"
    rw [k0 h (by decide) (by decide) (by decide), k1 h (by decide) (by decide), k2 h (by decide) (by decide),
      k3 h (by decide) (by decide), ← hs4,
      h.atPart _ _ _ (fun _ => reInfo_here b!"V" _ s5 (plain41 hval)), k5 h (by decide) (by decide),
      k6 h (by decide) (by decide), k7 h (by decide) (by decide)]
  have noV : ∀ {α : Type} {p : Bytes → Option α}, KeyRe b!"V" p → f.value = .nil →
      searchWith p (pre ++ (b!"<< /FT /" ++ (f.type ++ s1))) = none := fun h hv => by
    rw [k0 h (by decide) (by decide) (by decide), k1 h (by decide) (by decide), k2 h (by decide) (by decide),
      k3 h (by decide) (by decide), ← hs4]
    rw [show part (f.value ≠ .nil) b!"V" (b!"(" ++ shown f.value f.type ++ b!")") = [] by simp [part, hv],
      List.nil_append, k5 h (by decide) (by decide), k6 h (by decide) (by decide), k7 h (by decide) (by decide)]
  have aDV : searchWith (reInfo b!"/DV") (pre ++ (b!"<< /FT /" ++ (f.type ++ s1))) =
      if f.dflt ≠ .nil then some (shown f.dflt f.type) else none := by
    have h := keyRe_info b!"DV"
    rw [k0 h (by decide) (by decide) (by decide), k1 h (by decide) (by decide), k2 h (by decide) (by decide),
      k3 h (by decide) (by decide), k4 h (by decide) (by decide), ← hs5,
      h.atPart _ _ _ (fun _ => reInfo_here b!"DV" _ s6 (plain41 hdfl)),
      k6 h (by decide) (by decide), k7 h (by decide) (by decide)]
  have aM : searchWith (reKeyNum b!"/MaxLen") (pre ++ (b!"<< /FT /" ++ (f.type ++ s1))) =
      if f.maxLen > 0 then some (natDec f.maxLen) else none := by
    have h := keyRe_num b!"MaxLen"
    rw [k0 h (by decide) (by decide) (by decide), k1 h (by decide) (by decide), k2 h (by decide) (by decide),
      k3 h (by decide) (by decide), k4 h (by decide) (by decide), k5 h (by decide) (by decide), ← hs6,
      h.atPart _ _ _ (fun _ => reKeyNum_here b!"MaxLen" s7 f.maxLen (space_not_digit p7)),
      k7 h (by decide) (by decide)]
  have aO : searchWith (reKeyArr b!"/Opt") (pre ++ (b!"<< /FT /" ++ (f.type ++ s1))) =
      if f.options ≠ [] then some (optionTexts f.options) else none := by
    have h := keyRe_arr b!"Opt"
    have h93 := options_free (d := 93) ⟨by decide, by decide, by decide, fun h => h.2.2.2.2.2.2.2.2.2 rfl⟩ f.options hf.options
    rw [k0 h (by decide) (by decide) (by decide), k1 h (by decide) (by decide), k2 h (by decide) (by decide),
      k3 h (by decide) (by decide), k4 h (by decide) (by decide), k5 h (by decide) (by decide),
      k6 h (by decide) (by decide), ← hs7,
      h.atPart _ _ _ (fun _ => reKeyArr_here b!"Opt" _ _ h93), h.none hend]
  unfold parseAttrs
  rw [aFT, aT, aTU, aFf, aV, aDV, aM, aO]
  have e1 : (match (if f.name ≠ [] then some f.name else none : Option Bytes) with
      | some x => x
      | none => (searchWith (reKeyName b!"/T") (pre ++ (b!"<< /FT /" ++ (f.type ++ s1)))).getD []) = f.name := by
    by_cases hn : f.name = []
    · simp only [hn, ne_eq, not_true_eq_false, if_false]; rw [aT2 hn]; rfl
    · simp [hn]
  have e2 : (match (if f.value ≠ .nil then some (shown f.value f.type) else none : Option Bytes) with
      | some x => FVal.str x
      | none => match searchWith (reKeyName b!"/V") (pre ++ (b!"<< /FT /" ++ (f.type ++ s1))) with
        | some x => .str x
        | none => match searchWith (reKeyArr b!"/V") (pre ++ (b!"<< /FT /" ++ (f.type ++ s1))) with
          | some x => .arr (parseArray x)
          | none => .none) = if f.value = .nil then .none else .str (formatFieldValue f.value f.type) := by
    by_cases hv : f.value = .nil
    · rw [noV (keyRe_name b!"V") hv, noV (keyRe_arr b!"V") hv]; simp [hv]
    · simp [hv, shown]
  have e3 : ((if f.flags ≠ 0 then some (natDec f.flags) else none : Option Bytes).map atoiClamp).getD 0 = f.flags := by
    by_cases h : f.flags = 0
    · simp [h]
    · simp [h, atoiClamp_natDec _ hf.flags]
  have e4 : ((if f.maxLen > 0 then some (natDec f.maxLen) else none : Option Bytes).map atoiClamp).getD 0 = f.maxLen := by
    by_cases h : f.maxLen > 0
    · simp [h, atoiClamp_natDec _ hf.maxLen]
    · simp [h]; omega
  have e5 : ((if f.options ≠ [] then some (optionTexts f.options) else none : Option Bytes).map parseOptions).getD [] = f.options := by
    by_cases h : f.options = []
    · simp [h]
    · simp [h, parseOptions, options_paren _ h, options_read _ hf.options]
  have e6 := shown_ite f.dflt f.type
  rw [e3, e4, e5, e6]
  congr 1

end Pdfer.Forms
