import Verif.Model.Crypto
import Verif.Proofs.Text
import Verif.Proofs.UpdateBase

/-! The encryption dictionary written by the library is read back by it. -/

namespace Pdfer.Crypto

open Go Pdfer.Incremental

/-! ### Text that cannot contain the start of a key -/

/-- No occurrence of `key` starts inside `a`, whatever follows `a`. -/
def Avoid (key a : Bytes) : Prop := ∀ i, i < a.length → ∀ s, ¬ key <+: a.drop i ++ s

/-- Decidable form of `Avoid`: at every position of `a` some byte differs from the key. -/
def clash (key : Bytes) : Bytes → Bool
  | [] => true
  | c :: a => (!key.isPrefixOf (c :: a)) && (!(c :: a).isPrefixOf key) && clash key a

theorem avoid_clash {key a : Bytes} (h : clash key a = true) : Avoid key a := by
  induction a with
  | nil => intro i hi; simp at hi
  | cons c a ih =>
    simp only [clash, Bool.and_eq_true, Bool.not_eq_true'] at h
    obtain ⟨⟨h1, h2⟩, h3⟩ := h
    intro i hi s hp
    cases i with
    | zero =>
      rw [List.drop_zero] at hp
      obtain ⟨t, ht⟩ := hp
      rcases List.append_eq_append_iff.1 ht with ⟨u, hu, _⟩ | ⟨u, hu, _⟩
      · have : key.isPrefixOf (c :: a) = true := by rw [List.isPrefixOf_iff_prefix]; exact ⟨u, hu.symm⟩
        simp [this] at h1
      · have : (c :: a).isPrefixOf key = true := by rw [List.isPrefixOf_iff_prefix]; exact ⟨u, hu.symm⟩
        simp [this] at h2
    | succ i => exact ih h3 i (by simpa using hi) s (by simpa using hp)

theorem avoid_append {key a b : Bytes} (ha : Avoid key a) (hb : Avoid key b) : Avoid key (a ++ b) := by
  intro i hi s hp
  by_cases h : i < a.length
  · rw [List.drop_append_of_le_length (by omega), List.append_assoc] at hp
    exact ha i h _ hp
  · rw [List.drop_append, List.drop_of_length_le (by omega), List.nil_append] at hp
    exact hb (i - a.length) (by simp at hi; omega) s hp

theorem avoid_head {c : UInt8} {key a : Bytes} (h : c ∉ a) : Avoid (c :: key) a := by
  intro i hi s hp
  obtain ⟨t, ht⟩ := hp
  apply h
  apply List.mem_of_mem_drop (i := i)
  have hne : a.drop i ≠ [] := by intro e; have := congrArg List.length e; simp at this; omega
  match hd : a.drop i, hne with
  | x :: r, _ =>
    rw [hd] at ht
    simp only [List.cons_append, List.cons.injEq] at ht
    simp [ht.1]

theorem avoid_nil (key : Bytes) : Avoid key [] := by intro i hi; simp at hi

theorem avoid_tail {key a : Bytes} {c : UInt8} (h : Avoid key (c :: a)) : Avoid key a := by
  intro i hi s; exact h (i + 1) (by simpa using hi) s

theorem avoid_ite {key a b : Bytes} {c : Prop} [Decidable c] (ha : Avoid key a) (hb : Avoid key b) :
    Avoid key (if c then a else b) := by
  split <;> assumption

theorem avoid_noOcc {key a : Bytes} (h : Avoid key a) (hk : key ≠ []) : NoOcc key a := by
  intro i hp
  by_cases hi : i < a.length
  · exact h i hi [] (by simpa using hp)
  · rw [List.drop_of_length_le (by omega)] at hp
    exact hk (List.prefix_nil.1 hp)

theorem searchWith_avoid {α : Type} {p : Bytes → Option α} {key : Bytes} (hp : ∀ s, p s ≠ none → key <+: s)
    {a s : Bytes} (h : Avoid key a) : searchWith p (a ++ s) = searchWith p s := by
  induction a with
  | nil => rfl
  | cons c a ih =>
    rw [List.cons_append, searchWith]
    have : p (c :: (a ++ s)) = none := by
      apply Classical.byContradiction
      intro hn
      exact h 0 (by simp) s (by simpa using hp _ hn)
    rw [this]
    exact ih (avoid_tail h)

theorem index_avoid {key a s : Bytes} (h : Avoid key a) : index key (a ++ s) = (index key s).map (· + a.length) := by
  induction a with
  | nil => simp
  | cons c a ih =>
    have h0 : ¬ key.isPrefixOf (c :: (a ++ s)) = true := by
      rw [List.isPrefixOf_iff_prefix]; exact fun hp => h 0 (by simp) s (by simpa using hp)
    rw [List.cons_append, index, if_neg h0, ih (avoid_tail h)]
    cases index key s <;> simp
    omega

theorem findKeyNums_avoid {key a s : Bytes} (h : Avoid key a) :
    findKeyNums key 0 (a ++ s) = findKeyNums key 0 s := by
  induction a with
  | nil => rfl
  | cons c a ih =>
    have : reLit key (c :: (a ++ s)) = none := by
      apply Classical.byContradiction
      intro hn
      exact h 0 (by simp) s (by simpa using reLit_prefix hn)
    rw [List.cons_append, findKeyNums, this]
    exact ih (avoid_tail h)

/-! ### Hexadecimal strings -/

theorem hexDigit_hexUp : ∀ n, n < 16 → hexDigit (hexUp n) = some n := by decide
theorem isHex_hexUp : ∀ n, n < 16 → isHex (hexUp n) = true := by decide
theorem hexUp_not_space : ∀ n, n < 16 → (hexUp n == 32 || hexUp n == 10 || hexUp n == 13) = false := by decide

theorem isHex_hexUpper (bs : Bytes) : ∀ c ∈ hexUpper bs, isHex c = true := by
  intro c hc
  obtain ⟨n, hn, rfl⟩ := hexUpper_mem hc
  exact isHex_hexUp n hn

theorem parseHexPairs_hexUpper (bs : Bytes) : parseHexPairs (hexUpper bs) = bs := by
  induction bs with
  | nil => rfl
  | cons b bs ih =>
    have hb : b.toNat < 256 := b.toNat_lt
    have : hexUpper (b :: bs) = hexUp (b.toNat / 16) :: hexUp (b.toNat % 16) :: hexUpper bs := rfl
    rw [this, parseHexPairs, hexDigit_hexUp _ (by omega), hexDigit_hexUp _ (by omega)]
    simp only
    rw [ih, show 16 * (b.toNat / 16) + b.toNat % 16 = b.toNat by omega]
    simp

theorem parseHexString_hexUpper (bs : Bytes) : parseHexString (hexUpper bs) = bs := by
  have : (hexUpper bs).filter (fun c => !(c == 32 || c == 10 || c == 13)) = hexUpper bs := by
    rw [List.filter_eq_self]
    intro c hc
    obtain ⟨n, hn, rfl⟩ := hexUpper_mem hc
    simp only [hexUp_not_space n hn, Bool.not_false]
  rw [parseHexString, this, parseHexPairs_hexUpper]

theorem hexUpper_ne_nil {bs : Bytes} (h : bs ≠ []) : hexUpper bs ≠ [] := by
  cases bs with
  | nil => exact absurd rfl h
  | cons b bs => simp [hexUpper]

theorem takeWhile_hex (bs s : Bytes) (hs : ∀ c, s.head? = some c → isHex c = false) :
    (hexUpper bs ++ s).takeWhile isHex = hexUpper bs := by
  have : ∀ l : Bytes, (∀ c ∈ l, isHex c = true) → (l ++ s).takeWhile isHex = l := by
    intro l hl
    induction l with
    | nil =>
      cases s with
      | nil => rfl
      | cons c s => simp [hs c rfl]
    | cons c l ih => simp [hl c (by simp), ih (fun x hx => hl x (by simp [hx]))]
  exact this _ (isHex_hexUpper bs)

theorem reKeyHex_here (key bs s : Bytes) (h : bs ≠ []) :
    reKeyHex key (key ++ b!" <" ++ hexUpper bs ++ b!">" ++ s) = some (hexUpper bs) := by
  simp only [reKeyHex, List.append_assoc, reLit_append, Option.bind_some]
  have h1 : reSp0 (b!" <" ++ (hexUpper bs ++ (b!">" ++ s))) = b!"<" ++ (hexUpper bs ++ (b!">" ++ s)) := rfl
  rw [h1, reLit_append]
  simp only [Option.bind_some]
  rw [takeWhile_hex bs _ (by intro c hc; simp at hc; subst hc; decide), if_neg (hexUpper_ne_nil h),
    List.drop_left, reLit_append]
  rfl

theorem reKeyHex_prefix (key s : Bytes) (h : reKeyHex key s ≠ none) : key <+: s := by
  apply reLit_prefix
  intro e; apply h; simp [reKeyHex, e]

theorem reKeyInt_prefix (key s : Bytes) (h : reKeyInt key s ≠ none) : key <+: s := by
  apply reLit_prefix
  intro e; apply h; simp [reKeyInt, e]

theorem reKeyParen_prefix (key s : Bytes) (h : reKeyParen key s ≠ none) : key <+: s := by
  apply reLit_prefix
  intro e; apply h; simp [reKeyParen, e]

/-! ### Reading one entry -/

theorem keyBytes_at {key a bs s tail : Bytes} (ha : Avoid key a) (h : bs ≠ []) :
    keyBytes key (a ++ (key ++ b!" <" ++ hexUpper bs ++ b!">" ++ s)) tail = bs := by
  simp only [keyBytes]
  rw [searchWith_avoid (reKeyHex_prefix key) ha, searchWith_here (reKeyHex_here key bs s h)]
  exact parseHexString_hexUpper bs

theorem keyBytesOE_at {a bs s tail : Bytes} (ha : Avoid b!"/OE" a) (h : bs ≠ []) :
    keyBytesOE (a ++ (b!"/OE" ++ b!" <" ++ hexUpper bs ++ b!">" ++ s)) tail = bs := by
  simp only [keyBytesOE]
  rw [searchWith_avoid (reKeyHex_prefix _) ha, searchWith_here (reKeyHex_here _ bs s h)]
  exact parseHexString_hexUpper bs

theorem keyBytes_none {key a tail : Bytes} (ha : Avoid key a) (hk : key ≠ []) : keyBytes key a tail = [] := by
  simp only [keyBytes]
  rw [searchWith_none (reKeyHex_prefix key) (avoid_noOcc ha hk), searchWith_none (reKeyParen_prefix key) (avoid_noOcc ha hk)]

theorem keyBytesOE_none {a tail : Bytes} (ha : Avoid b!"/OE" a) : keyBytesOE a tail = [] := by
  simp only [keyBytesOE]
  rw [searchWith_none (reKeyHex_prefix _) (avoid_noOcc ha (by decide)),
    searchWith_none (reKeyParen_prefix _) (avoid_noOcc ha (by decide))]

theorem key_match {key : Bytes} {n : Nat} {s : Bytes} (hs : ∀ c, s.head? = some c → isDigit c = false) :
    ((reLit key (key ++ b!" " ++ natDec n ++ s)).bind fun s => (reSp1 s).bind fun s => (reNum s)) = some (natDec n, s) := by
  simp only [List.append_assoc, reLit_append, Option.bind_some]
  have : reSp1 (b!" " ++ (natDec n ++ s)) = some (natDec n ++ s) :=
    reSp1_one (fun c hc => isDigit_not_reSpace (natDec_head n s c hc))
  rw [this]
  simp only [Option.bind_some]
  exact reNum_natDec hs

theorem findKeyNums_here {x : UInt8} {key : Bytes} {n : Nat} {s : Bytes} (hs : ∀ c, s.head? = some c → isDigit c = false) :
    ∃ l, findKeyNums (x :: key) 0 ((x :: key) ++ b!" " ++ natDec n ++ s) = ((x :: key) ++ b!" " ++ natDec n, natDec n) :: l := by
  have hm := key_match (key := x :: key) (n := n) hs
  simp only [List.cons_append] at hm ⊢
  rw [findKeyNums, hm]
  have h1 : (x :: (key ++ b!" " ++ natDec n ++ s)).length - s.length = (x :: (key ++ b!" " ++ natDec n)).length := by
    simp; omega
  have h2 : (x :: (key ++ b!" " ++ natDec n ++ s)).take ((x :: (key ++ b!" " ++ natDec n ++ s)).length - s.length) =
      x :: (key ++ b!" " ++ natDec n) := by
    rw [h1]
    exact List.take_left (l₁ := x :: (key ++ b!" " ++ natDec n))
  simp only [h2]
  exact ⟨_, rfl⟩

theorem find_cons_true {α : Type} (p : α → Bool) (a : α) (l : List α) (h : p a = true) : (a :: l).find? p = some a := by
  simp [List.find?, h]

/-- Nothing before the entry looks like a crypt-filter dictionary. -/
theorem nested_false {markers : List Bytes} {x : UInt8} {key a s : Bytes} {n : Nat} (ha : Avoid (x :: key) a)
    (hm : ∀ k ∈ markers, Avoid k a ∧ k ≠ []) :
    nested markers (a ++ ((x :: key) ++ b!" " ++ natDec n ++ s)) ((x :: key) ++ b!" " ++ natDec n) = false := by
  have ha' : Avoid ((x :: key) ++ b!" " ++ natDec n) a := by
    intro i hi t hp
    apply ha i hi t
    obtain ⟨u, hu⟩ := hp
    exact ⟨b!" " ++ natDec n ++ u, by rw [← hu]; simp⟩
  have hi : index ((x :: key) ++ b!" " ++ natDec n) (a ++ ((x :: key) ++ b!" " ++ natDec n ++ s)) = some a.length := by
    rw [index_avoid ha', index_here (List.prefix_append _ _)]
    simp
  simp only [nested, hi, Option.getD_some, List.take_left]
  rw [List.any_eq_false]
  intro k hk
  have := noOcc_drop (avoid_noOcc (hm k hk).1 (hm k hk).2) (a.length - 50)
  rw [noOcc_iff_index] at this
  simp [contains, this]

theorem topNum_at {x : UInt8} {key a s : Bytes} {n : Nat} (ha : Avoid (x :: key) a) (h1 : Avoid b!"/CF" a)
    (h2 : Avoid b!"/StdCF" a) (hs : ∀ c, s.head? = some c → isDigit c = false) (hn : n ≤ 9223372036854775807) :
    topNum (x :: key) (a ++ ((x :: key) ++ b!" " ++ natDec n ++ s)) = n := by
  obtain ⟨l, hl⟩ := findKeyNums_here (x := x) (key := key) (n := n) hs
  have hnest := nested_false (markers := [b!"/CF", b!"/StdCF"]) (s := s) (n := n) ha (by
    intro k hk
    simp only [List.mem_cons, List.not_mem_nil, or_false] at hk
    rcases hk with rfl | rfl
    · exact ⟨h1, by decide⟩
    · exact ⟨h2, by decide⟩)
  simp only [topNum]
  rw [findKeyNums_avoid ha, hl, find_cons_true _ _ _ (by simp only [hnest]; rfl)]
  exact atoiClamp_natDec n hn

theorem topLength_at {a s : Bytes} {n : Nat} (ha : Avoid b!"/Length" a) (h1 : Avoid b!"/CF" a)
    (hs : ∀ c, s.head? = some c → isDigit c = false) (hn : n ≤ 9223372036854775807) (h0 : 0 < n) :
    topLength (a ++ (b!"/Length" ++ b!" " ++ natDec n ++ s)) = n / 8 := by
  obtain ⟨l, hl⟩ := findKeyNums_here (x := 47) (key := b!"Length") (n := n) hs
  have hnest := nested_false (x := 47) (key := b!"Length") (markers := [b!"/CF"]) (s := s) (n := n) ha (by
    intro k hk
    simp only [List.mem_cons, List.not_mem_nil, or_false] at hk
    subst hk
    exact ⟨h1, by decide⟩)
  simp only [topLength]
  rw [findKeyNums_avoid ha, hl, find_cons_true _ _ _ (by
    simp only [hnest, atoiClamp_natDec n hn]; simpa using h0)]
  simp only [atoiClamp_natDec n hn]

theorem parseInt32_at {a s : Bytes} {p : Int} (ha : Avoid b!"/P" a) (hs : ∀ c, s.head? = some c → isDigit c = false)
    (h1 : -2147483648 ≤ p) (h2 : p ≤ 2147483647) :
    ((searchWith (reKeyInt b!"/P") (a ++ (b!"/P " ++ itoa p ++ s))).map parseInt32).getD 0 = p := by
  rw [searchWith_avoid (reKeyInt_prefix _) ha]
  cases p with
  | ofNat n =>
    have hd := natDec_head n s
    have h : reKeyInt b!"/P" (b!"/P " ++ itoa (Int.ofNat n) ++ s) = some (false, natDec n) := by
      have e : b!"/P " ++ itoa (Int.ofNat n) ++ s = b!"/P" ++ (32 :: (natDec n ++ s)) := by simp [itoa]
      rw [e]
      simp only [reKeyInt, reLit_append, Option.bind_some]
      rw [reSp1_one (fun c hc => isDigit_not_reSpace (hd c hc))]
      simp only [Option.bind_some]
      have : reLit b!"-" (natDec n ++ s) = none := by
        apply Classical.byContradiction
        intro hne
        obtain ⟨t, ht⟩ := reLit_prefix hne
        have := hd 45 (by rw [← ht]; rfl)
        exact absurd this (by decide)
      rw [this, reNum_natDec hs]
      rfl
    rw [searchWith_here h]
    have hb : n ≤ 2147483647 := by have h2' : (n : Int) ≤ 2147483647 := h2; omega
    simp only [Option.map_some, Option.getD_some, parseInt32, digitsVal_natDec, Nat.min_eq_left hb]
    rfl
  | negSucc n =>
    have h : reKeyInt b!"/P" (b!"/P " ++ itoa (Int.negSucc n) ++ s) = some (true, natDec (n + 1)) := by
      have e : b!"/P " ++ itoa (Int.negSucc n) ++ s = b!"/P" ++ (32 :: (b!"-" ++ (natDec (n + 1) ++ s))) := by simp [itoa]
      rw [e]
      simp only [reKeyInt, reLit_append, Option.bind_some]
      rw [reSp1_one (fun c hc => by simp at hc; subst hc; decide)]
      simp only [Option.bind_some]
      rw [reLit_append]
      simp only
      rw [reNum_natDec hs]
      rfl
    rw [searchWith_here h]
    have hb : n + 1 ≤ 2147483648 := by rw [Int.negSucc_eq] at h1; omega
    simp only [Option.map_some, Option.getD_some, parseInt32, digitsVal_natDec, Nat.min_eq_left hb]
    rfl

/-! ### The extent of the dictionary -/

theorem scanDict_text : ∀ (a : Bytes) (fuel i : Nat) (r : Bytes), Avoid b!"<<" a → Avoid b!">>" a → a.length + 1 ≤ fuel →
    scanDict fuel 1 i (a ++ b!">>" ++ r) = some (i + a.length + 2) := by
  intro a
  induction a with
  | nil =>
    intro fuel i r _ _ hf
    obtain ⟨f, rfl⟩ : ∃ f, fuel = f + 1 := ⟨fuel - 1, by simp at hf; omega⟩
    simp [scanDict]
  | cons c a ih =>
    intro fuel i r h1 h2 hf
    simp only [List.length_cons] at hf
    obtain ⟨f, rfl⟩ : ∃ f, fuel = f + 1 := ⟨fuel - 1, by omega⟩
    have hrest : ∃ d t, a ++ b!">>" ++ r = d :: t := by
      cases a with
      | nil => exact ⟨62, 62 :: r, rfl⟩
      | cons d a => exact ⟨d, a ++ b!">>" ++ r, rfl⟩
    obtain ⟨d, t, hd⟩ := hrest
    have e : c :: a ++ b!">>" ++ r = c :: d :: t := by rw [List.cons_append, List.cons_append, hd]
    have n1 : ¬ (c = 60 ∧ d = 60) := by
      rintro ⟨rfl, rfl⟩
      exact h1 0 (by simp) (b!">>" ++ r) ⟨t, by simpa using e.symm⟩
    have n2 : ¬ (c = 62 ∧ d = 62) := by
      rintro ⟨rfl, rfl⟩
      exact h2 0 (by simp) (b!">>" ++ r) ⟨t, by simpa using e.symm⟩
    rw [e, scanDict, if_neg n1, if_neg n2, ← hd, ih f (i + 1) r (avoid_tail h1) (avoid_tail h2) (by omega)]
    simp; omega

theorem scanDict_dict {a r : Bytes} (h1 : Avoid b!"<<" a) (h2 : Avoid b!">>" a) (hl : a.length ≤ 1996) :
    scanDict 2000 0 0 (b!"<<" ++ a ++ b!">>" ++ r) = some (a.length + 4) := by
  have e : b!"<<" ++ a ++ b!">>" ++ r = 60 :: 60 :: (a ++ b!">>" ++ r) := by simp
  rw [e, scanDict, if_pos (by decide)]
  have := scanDict_text a 1998 2 r h1 h2 (by omega)
  simp only [Nat.add_one_sub_one] at this ⊢
  rw [show (0 : Int) + 1 = 1 by rfl, show 0 + 2 = 2 by rfl, this]
  congr 1; omega

theorem avoid_cons {key a : Bytes} {c : UInt8} (h0 : ∀ s, ¬ key <+: c :: a ++ s) (h : Avoid key a) : Avoid key (c :: a) := by
  intro i hi s
  cases i with
  | zero => simpa using h0 s
  | succ i => simpa using h i (by simpa using hi) s

theorem slash_not_natDec (n : Nat) : (47 : UInt8) ∉ natDec n := not_mem_natDec (by decide) n

theorem slash_not_itoa (n : Int) : (47 : UInt8) ∉ itoa n := by
  cases n with
  | ofNat n => exact slash_not_natDec n
  | negSucc n => simp [itoa, slash_not_natDec]

theorem slash_not_hex (bs : Bytes) : (47 : UInt8) ∉ hexUpper bs := not_mem_hexUpper bs (by decide)

/-- The entries of the dictionary, between the brackets. -/
def dictBody (e : Enc) : Bytes :=
  b!"\n/Filter /Standard\n" ++ (b!"/V " ++ natDec e.v ++ b!"\n") ++ (b!"/R " ++ natDec e.r ++ b!"\n") ++
  (b!"/Length " ++ natDec (e.keyLength * 8) ++ b!"\n") ++ (b!"/P " ++ itoa e.p ++ b!"\n") ++
  (b!"/U <" ++ hexUpper e.u ++ b!">\n") ++ (b!"/O <" ++ hexUpper e.o ++ b!">\n") ++
  (if e.ue.length > 0 then b!"/UE <" ++ hexUpper e.ue ++ b!">\n" else []) ++
  (if e.oe.length > 0 then b!"/OE <" ++ hexUpper e.oe ++ b!">\n" else []) ++
  (if e.encryptMetadata then [] else b!"/EncryptMetadata false\n")

theorem encryptDict_eq (e : Enc) : encryptDict e = b!"<<" ++ dictBody e ++ b!">>" := by
  unfold encryptDict dictBody
  simp only [List.append_assoc, List.cons_append, List.nil_append]

/-- Closes `Avoid` goals for texts made of literals, numbers and hexadecimal strings. -/
macro "avoid" : tactic => `(tactic| (
  repeat' (first
    | exact avoid_nil _
    | exact avoid_clash (by decide)
    | exact avoid_head (slash_not_natDec _)
    | exact avoid_head (slash_not_itoa _)
    | exact avoid_head (slash_not_hex _)
    | apply avoid_append
    | apply avoid_ite)))

theorem avoid_hexseg {lit bs : Bytes} (hl : clash b!"<<" lit = true) (hr : clash b!">>" lit = true) :
    Avoid b!"<<" (lit ++ b!"<" ++ hexUpper bs ++ b!">\n") ∧ Avoid b!">>" (lit ++ b!"<" ++ hexUpper bs ++ b!">\n") := by
  have h60 : (60 : UInt8) ∉ hexUpper bs := not_mem_hexUpper bs (by decide)
  have h62 : (62 : UInt8) ∉ hexUpper bs := not_mem_hexUpper bs (by decide)
  rw [List.append_assoc, List.append_assoc]
  refine ⟨avoid_append (avoid_clash hl) ?_, avoid_append (avoid_clash hr) ?_⟩
  · show Avoid b!"<<" (60 :: (hexUpper bs ++ b!">\n"))
    apply avoid_cons
    · intro s hp
      obtain ⟨t, ht⟩ := hp
      simp only [List.nil_append, List.cons_append, List.cons.injEq, true_and] at ht
      cases hb : hexUpper bs with
      | nil => rw [hb] at ht; simp at ht
      | cons c r =>
        rw [hb] at ht
        simp only [List.cons_append, List.cons.injEq] at ht
        exact h60 (by rw [hb, ← ht.1]; simp)
    · exact avoid_append (avoid_head h60) (avoid_clash (by decide))
  · exact avoid_append (a := b!"<") (avoid_clash (by decide)) (avoid_append (avoid_head h62) (avoid_clash (by decide)))

theorem avoid_dictBody_brackets (e : Enc) : Avoid b!"<<" (dictBody e) ∧ Avoid b!">>" (dictBody e) := by
  have n60 : ∀ n, (60 : UInt8) ∉ natDec n := fun n => not_mem_natDec (by decide) n
  have n62 : ∀ n, (62 : UInt8) ∉ natDec n := fun n => not_mem_natDec (by decide) n
  have i60 : ∀ n : Int, (60 : UInt8) ∉ itoa n := by intro n; cases n <;> simp [itoa, n60]
  have i62 : ∀ n : Int, (62 : UInt8) ∉ itoa n := by intro n; cases n <;> simp [itoa, n62]
  have hu := avoid_hexseg (lit := b!"/U ") (bs := e.u) (by decide) (by decide)
  have ho := avoid_hexseg (lit := b!"/O ") (bs := e.o) (by decide) (by decide)
  have hue := avoid_hexseg (lit := b!"/UE ") (bs := e.ue) (by decide) (by decide)
  have hoe := avoid_hexseg (lit := b!"/OE ") (bs := e.oe) (by decide) (by decide)
  constructor
  · unfold dictBody
    repeat' (first
      | exact hu.1 | exact ho.1 | exact hue.1 | exact hoe.1
      | exact avoid_nil _ | exact avoid_clash (by decide)
      | exact avoid_head (n60 _) | exact avoid_head (i60 _)
      | apply avoid_append | apply avoid_ite)
  · unfold dictBody
    repeat' (first
      | exact hu.2 | exact ho.2 | exact hue.2 | exact hoe.2
      | exact avoid_nil _ | exact avoid_clash (by decide)
      | exact avoid_head (n62 _) | exact avoid_head (i62 _)
      | apply avoid_append | apply avoid_ite)

/-! ### All entries -/

/-- What the written dictionary can express: a positive version, revision and key length within Go's `int`, 32-bit
permissions, non-empty /U and /O. -/
structure DictOk (e : Enc) : Prop where
  v : 1 ≤ e.v ∧ e.v ≤ 9223372036854775807
  r : 1 ≤ e.r ∧ e.r ≤ 9223372036854775807
  keyLength : 1 ≤ e.keyLength ∧ e.keyLength * 8 ≤ 9223372036854775807
  p : -2147483648 ≤ e.p ∧ e.p ≤ 2147483647
  u : e.u ≠ []
  o : e.o ≠ []

/-- The text up to and including the entry /Length. -/
def part1 (e : Enc) : Bytes :=
  b!"<<\n/Filter /Standard\n" ++ (b!"/V " ++ natDec e.v ++ b!"\n") ++ (b!"/R " ++ natDec e.r ++ b!"\n") ++
  (b!"/Length " ++ natDec (e.keyLength * 8) ++ b!"\n")

/-- The text up to and including the entry /O. -/
def part2 (e : Enc) : Bytes :=
  part1 e ++ (b!"/P " ++ itoa e.p ++ b!"\n") ++ (b!"/U <" ++ hexUpper e.u ++ b!">\n") ++ (b!"/O <" ++ hexUpper e.o ++ b!">\n")

def ueText (e : Enc) : Bytes := if e.ue.length > 0 then b!"/UE <" ++ hexUpper e.ue ++ b!">\n" else []
def oeText (e : Enc) : Bytes := if e.oe.length > 0 then b!"/OE <" ++ hexUpper e.oe ++ b!">\n" else []
def emText (e : Enc) : Bytes := if e.encryptMetadata then [] else b!"/EncryptMetadata false\n"

theorem dict_parts (e : Enc) : encryptDict e = part2 e ++ ueText e ++ oeText e ++ emText e ++ b!">>" := by
  unfold encryptDict part2 part1 ueText oeText emText
  simp only [List.append_assoc, List.cons_append, List.nil_append]

theorem topNum_v (e : Enc) (h : DictOk e) : topNum b!"/V" (encryptDict e) = e.v := by
  have eq : encryptDict e = b!"<<\n/Filter /Standard\n" ++ (b!"/V" ++ b!" " ++ natDec e.v ++ (b!"\n" ++
      ((b!"/R " ++ natDec e.r ++ b!"\n") ++ (b!"/Length " ++ natDec (e.keyLength * 8) ++ b!"\n") ++
      (b!"/P " ++ itoa e.p ++ b!"\n") ++ (b!"/U <" ++ hexUpper e.u ++ b!">\n") ++ (b!"/O <" ++ hexUpper e.o ++ b!">\n") ++
      ueText e ++ oeText e ++ emText e ++ b!">>"))) := by
    rw [dict_parts]
    unfold part2 part1
    simp only [List.append_assoc, List.cons_append, List.nil_append]
  rw [eq]
  refine topNum_at ?_ ?_ ?_ ?_ h.v.2
  · avoid
  · avoid
  · avoid
  · intro c hc; simp at hc; subst hc; decide

theorem topNum_r (e : Enc) (h : DictOk e) : topNum b!"/R" (encryptDict e) = e.r := by
  have eq : encryptDict e = (b!"<<\n/Filter /Standard\n" ++ (b!"/V " ++ natDec e.v ++ b!"\n")) ++ (b!"/R" ++ b!" " ++ natDec e.r ++ (b!"\n" ++
      ((b!"/Length " ++ natDec (e.keyLength * 8) ++ b!"\n") ++
      (b!"/P " ++ itoa e.p ++ b!"\n") ++ (b!"/U <" ++ hexUpper e.u ++ b!">\n") ++ (b!"/O <" ++ hexUpper e.o ++ b!">\n") ++
      ueText e ++ oeText e ++ emText e ++ b!">>"))) := by
    rw [dict_parts]
    unfold part2 part1
    simp only [List.append_assoc, List.cons_append, List.nil_append]
  rw [eq]
  refine topNum_at ?_ ?_ ?_ ?_ h.r.2
  · avoid
  · avoid
  · avoid
  · intro c hc; simp at hc; subst hc; decide

theorem topLength_dict (e : Enc) (h : DictOk e) : topLength (encryptDict e) = e.keyLength := by
  have eq : encryptDict e = (b!"<<\n/Filter /Standard\n" ++ (b!"/V " ++ natDec e.v ++ b!"\n") ++ (b!"/R " ++ natDec e.r ++ b!"\n")) ++
      (b!"/Length" ++ b!" " ++ natDec (e.keyLength * 8) ++ (b!"\n" ++
      ((b!"/P " ++ itoa e.p ++ b!"\n") ++ (b!"/U <" ++ hexUpper e.u ++ b!">\n") ++ (b!"/O <" ++ hexUpper e.o ++ b!">\n") ++
      ueText e ++ oeText e ++ emText e ++ b!">>"))) := by
    rw [dict_parts]
    unfold part2 part1
    simp only [List.append_assoc, List.cons_append, List.nil_append]
  rw [eq, topLength_at _ _ _ h.keyLength.2 (by have := h.keyLength.1; omega)]
  · omega
  · avoid
  · avoid
  · intro c hc; simp at hc; subst hc; decide

theorem p_dict (e : Enc) (h : DictOk e) : ((searchWith (reKeyInt b!"/P") (encryptDict e)).map parseInt32).getD 0 = e.p := by
  have eq : encryptDict e = part1 e ++ (b!"/P " ++ itoa e.p ++ (b!"\n" ++
      ((b!"/U <" ++ hexUpper e.u ++ b!">\n") ++ (b!"/O <" ++ hexUpper e.o ++ b!">\n") ++
      ueText e ++ oeText e ++ emText e ++ b!">>"))) := by
    rw [dict_parts]
    unfold part2
    simp only [List.append_assoc, List.cons_append, List.nil_append]
  rw [eq]
  refine parseInt32_at ?_ ?_ h.p.1 h.p.2
  · unfold part1; avoid
  · intro c hc; simp at hc; subst hc; decide

theorem u_dict (e : Enc) (h : DictOk e) (tail : Bytes) : keyBytes b!"/U" (encryptDict e) tail = e.u := by
  have eq : encryptDict e = (part1 e ++ (b!"/P " ++ itoa e.p ++ b!"\n")) ++ (b!"/U" ++ b!" <" ++ hexUpper e.u ++ b!">" ++ (b!"\n" ++
      ((b!"/O <" ++ hexUpper e.o ++ b!">\n") ++ ueText e ++ oeText e ++ emText e ++ b!">>"))) := by
    rw [dict_parts]
    unfold part2
    simp only [List.append_assoc, List.cons_append, List.nil_append]
  rw [eq, keyBytes_at _ h.u]
  unfold part1; avoid

theorem o_dict (e : Enc) (h : DictOk e) (tail : Bytes) : keyBytes b!"/O" (encryptDict e) tail = e.o := by
  have eq : encryptDict e = (part1 e ++ (b!"/P " ++ itoa e.p ++ b!"\n") ++ (b!"/U <" ++ hexUpper e.u ++ b!">\n")) ++
      (b!"/O" ++ b!" <" ++ hexUpper e.o ++ b!">" ++ (b!"\n" ++ (ueText e ++ oeText e ++ emText e ++ b!">>"))) := by
    rw [dict_parts]
    unfold part2
    simp only [List.append_assoc, List.cons_append, List.nil_append]
  rw [eq, keyBytes_at _ h.o]
  unfold part1; avoid

theorem avoid_part2_ue (e : Enc) : Avoid b!"/UE" (part2 e) := by unfold part2 part1; avoid
theorem avoid_part2_oe (e : Enc) : Avoid b!"/OE" (part2 e) := by unfold part2 part1; avoid
theorem avoid_part2_em (e : Enc) : Avoid b!"/EncryptMetadata false" (part2 e) := by unfold part2 part1; avoid

theorem ue_dict (e : Enc) (tail : Bytes) : keyBytes b!"/UE" (encryptDict e) tail = e.ue := by
  rw [dict_parts]
  by_cases hue : e.ue.length > 0
  · have : ueText e = b!"/UE" ++ b!" <" ++ hexUpper e.ue ++ b!">" ++ b!"\n" := by
      unfold ueText; rw [if_pos hue]; simp only [List.append_assoc, List.cons_append, List.nil_append]
    have eq : part2 e ++ ueText e ++ oeText e ++ emText e ++ b!">>" = part2 e ++ (b!"/UE" ++ b!" <" ++ hexUpper e.ue ++ b!">" ++
        (b!"\n" ++ (oeText e ++ emText e ++ b!">>"))) := by
      rw [this]; simp only [List.append_assoc, List.cons_append, List.nil_append]
    rw [eq, keyBytes_at (avoid_part2_ue e) (by intro h; simp [h] at hue)]
  · have h0 : e.ue = [] := List.eq_nil_of_length_eq_zero (by omega)
    have : ueText e = [] := by unfold ueText; rw [if_neg hue]
    rw [this, h0, keyBytes_none _ (by decide)]
    have h1 : Avoid b!"/UE" (oeText e) := by unfold oeText; avoid
    have h2 : Avoid b!"/UE" (emText e) := by unfold emText; avoid
    exact avoid_append (avoid_append (avoid_append (avoid_append (avoid_part2_ue e) (avoid_nil _)) h1) h2)
      (avoid_clash (by decide))

theorem oe_dict (e : Enc) (tail : Bytes) : keyBytesOE (encryptDict e) tail = e.oe := by
  rw [dict_parts]
  have hpre : Avoid b!"/OE" (part2 e ++ ueText e) := by
    apply avoid_append (avoid_part2_oe e)
    unfold ueText; avoid
  by_cases hoe : e.oe.length > 0
  · have : oeText e = b!"/OE" ++ b!" <" ++ hexUpper e.oe ++ b!">" ++ b!"\n" := by
      unfold oeText; rw [if_pos hoe]; simp only [List.append_assoc, List.cons_append, List.nil_append]
    have eq : part2 e ++ ueText e ++ oeText e ++ emText e ++ b!">>" = (part2 e ++ ueText e) ++ (b!"/OE" ++ b!" <" ++ hexUpper e.oe ++ b!">" ++
        (b!"\n" ++ (emText e ++ b!">>"))) := by
      rw [this]; simp only [List.append_assoc, List.cons_append, List.nil_append]
    rw [eq, keyBytesOE_at hpre (by intro h; simp [h] at hoe)]
  · have h0 : e.oe = [] := List.eq_nil_of_length_eq_zero (by omega)
    have : oeText e = [] := by unfold oeText; rw [if_neg hoe]
    rw [this, h0, keyBytesOE_none]
    unfold emText
    apply avoid_append
    · apply avoid_append
      · simpa using hpre
      · avoid
    · avoid

theorem em_dict (e : Enc) : contains (encryptDict e) b!"/EncryptMetadata false" = !e.encryptMetadata := by
  rw [dict_parts]
  have hpre : Avoid b!"/EncryptMetadata false" (part2 e ++ ueText e ++ oeText e) := by
    apply avoid_append
    · apply avoid_append (avoid_part2_em e)
      unfold ueText; avoid
    · unfold oeText; avoid
  rw [List.append_assoc (_ ++ oeText e), contains, index_avoid hpre]
  unfold emText
  cases e.encryptMetadata
  · rw [if_neg (by decide)]
    have : index b!"/EncryptMetadata false" (b!"/EncryptMetadata false\n" ++ b!">>") = some 0 := by decide
    rw [this]; rfl
  · rw [if_pos rfl]
    have : index b!"/EncryptMetadata false" ([] ++ b!">>") = none := by decide
    rw [this]; rfl

/-- The record read from the written dictionary. -/
def stored (e : Enc) : Enc :=
  { e with ue := if e.r ≥ 5 then e.ue else [], oe := if e.r ≥ 5 then e.oe else [], encryptKey := [], keyTail := [] }

theorem readDict_encryptDict (e : Enc) (h : DictOk e) (tail : Bytes) : readDict (encryptDict e) tail = stored e := by
  unfold readDict
  simp only [topNum_v e h, topNum_r e h, topLength_dict e h, p_dict e h, u_dict e h, o_dict e h, ue_dict, oe_dict, em_dict]
  have h1 : e.v ≠ 0 := by have := h.v.1; omega
  have h2 : e.r ≠ 0 := by have := h.r.1; omega
  have h3 : e.keyLength ≠ 0 := by have := h.keyLength.1; omega
  simp only [if_neg h1, if_neg h2, if_neg h3, Bool.not_not]
  rfl

/-! ### In a file -/

theorem reEncrypt_prefix (s : Bytes) (h : reEncrypt s ≠ none) : b!"/Encrypt" <+: s := by
  apply reLit_prefix
  intro e; apply h; simp [reEncrypt, e]

/-- A regexp search passes over text in which the matcher succeeds nowhere. -/
theorem searchWith_pass {α : Type} {p : Bytes → Option α} {a s : Bytes}
    (h : ∀ i, i < a.length → p (a.drop i ++ s) = none) : searchWith p (a ++ s) = searchWith p s := by
  induction a with
  | nil => rfl
  | cons c a ih =>
    rw [List.cons_append, searchWith]
    have h0 := h 0 (by simp)
    simp only [List.drop_zero, List.cons_append] at h0
    rw [h0]
    exact ih (fun i hi => by simpa using h (i + 1) (by simpa using hi))

theorem reEncrypt_metadata (s : Bytes) : reEncrypt (b!"/EncryptMetadata false\n" ++ s) = none := by
  have : b!"/EncryptMetadata false\n" ++ s = b!"/Encrypt" ++ (77 :: (b!"etadata false\n" ++ s)) := rfl
  rw [this, reEncrypt, reLit_append]
  rfl

theorem searchWith_dict (e : Enc) (s : Bytes) : searchWith reEncrypt (encryptDict e ++ s) = searchWith reEncrypt s := by
  rw [dict_parts]
  have hpre : Avoid b!"/Encrypt" (part2 e ++ ueText e ++ oeText e) := by
    unfold part2 part1 ueText oeText; avoid
  have eq : part2 e ++ ueText e ++ oeText e ++ emText e ++ b!">>" ++ s =
      (part2 e ++ ueText e ++ oeText e) ++ (emText e ++ (b!">>" ++ s)) := by
    simp only [List.append_assoc]
  rw [eq, searchWith_avoid reEncrypt_prefix hpre]
  have hend : searchWith reEncrypt (b!">>" ++ s) = searchWith reEncrypt s :=
    searchWith_avoid reEncrypt_prefix (avoid_clash (by decide))
  unfold emText
  split
  · simpa using hend
  · have h1 : searchWith reEncrypt (b!"/EncryptMetadata false\n" ++ (b!">>" ++ s)) =
        searchWith reEncrypt (b!"EncryptMetadata false\n" ++ (b!">>" ++ s)) := by
      have := reEncrypt_metadata (b!">>" ++ s)
      simp only [List.cons_append] at this ⊢
      rw [searchWith, this]
    rw [h1, searchWith_avoid reEncrypt_prefix (avoid_clash (by decide)), hend]

/-- Text without the key, ending with a byte that is not in the key. -/
theorem avoid_of_noOcc {key a : Bytes} {c : UInt8} (h : NoOcc key (a ++ [c])) (hc : c ∉ key) : Avoid key (a ++ [c]) := by
  intro i hi s hp
  obtain ⟨t, ht⟩ := hp
  rw [List.drop_append_of_le_length (by simp at hi; omega)] at ht
  by_cases hl : key.length ≤ (a.drop i ++ [c]).length
  · apply h i
    rw [List.drop_append_of_le_length (by simp at hi; omega)]
    refine ⟨(a.drop i ++ [c]).drop key.length, ?_⟩
    have h2 : key = ((a.drop i ++ [c]) ++ s).take key.length := by rw [← ht]; simp
    rw [List.take_append_of_le_length hl] at h2
    conv => lhs; lhs; rw [h2]
    exact List.take_append_drop _ _
  · apply hc
    have h2 : key = ((a.drop i ++ [c]) ++ s).take key.length := by rw [← ht]; simp
    rw [h2, List.take_append, List.take_of_length_le (by omega)]
    simp

/-- Empty, or ending with a line feed. -/
def Lines (a : Bytes) : Prop := a = [] ∨ ∃ b, a = b ++ [10]

theorem avoid_lines {key a : Bytes} (hl : Lines a) (h : NoOcc key a) (hk : 10 ∉ key) : Avoid key a := by
  rcases hl with rfl | ⟨b, rfl⟩
  · exact avoid_nil key
  · exact avoid_of_noOcc h hk

theorem reEncrypt_here (n : Nat) (s : Bytes) : reEncrypt (b!"/Encrypt " ++ natDec n ++ b!" 0 R" ++ s) = some (natDec n) := by
  have eq : b!"/Encrypt " ++ natDec n ++ b!" 0 R" ++ s = b!"/Encrypt" ++ (32 :: (natDec n ++ (32 :: (natDec 0 ++ (32 :: (82 :: s)))))) := by
    simp only [List.append_assoc, List.cons_append, List.nil_append]; rfl
  rw [eq, reEncrypt, reLit_append]
  simp only [Option.bind_some]
  rw [reSp1_one (fun c hc => isDigit_not_reSpace (natDec_head n _ c hc))]
  simp only [Option.bind_some]
  rw [reNum_natDec (by intro c hc; simp at hc; subst hc; decide)]
  simp only [Option.bind_some]
  rw [reSp1_one (fun c hc => isDigit_not_reSpace (natDec_head 0 _ c hc))]
  simp only [Option.bind_some]
  rw [reNum_natDec (by intro c hc; simp at hc; subst hc; decide)]
  simp only [Option.bind_some]
  rw [reSp1_one (by intro c hc; simp at hc; subst hc; decide)]
  simp [reLit]

/-- The encryption dictionary of a file: object `n`, referred to from the trailer by the first `/Encrypt n 0 R`. -/
theorem parseEncrypt_file (e : Enc) (h : DictOk e) (hlen : (encryptDict e).length ≤ 2000) (n : Nat)
    (hn : n ≤ 9223372036854775807) (pre mid post : Bytes) (hl : Lines pre) (hm : Lines mid)
    (h1 : NoOcc b!"/Encrypt" pre) (h2 : NoOcc b!"/Encrypt" mid) (h3 : NoOcc (natDec n ++ b!" 0 obj") pre) :
    parseEncrypt (pre ++ (natDec n ++ b!" 0 obj\n" ++ encryptDict e ++ b!"\nendobj\n") ++ mid ++
      (b!"/Encrypt " ++ natDec n ++ b!" 0 R" ++ post)) = some (stored e) := by
  have no10 : (10 : UInt8) ∉ natDec n ++ b!" 0 obj" := by
    simp only [List.mem_append, not_or]; exact ⟨not_mem_natDec (by decide) n, by decide⟩
  generalize hpdf : pre ++ (natDec n ++ b!" 0 obj\n" ++ encryptDict e ++ b!"\nendobj\n") ++ mid ++
      (b!"/Encrypt " ++ natDec n ++ b!" 0 R" ++ post) = pdf
  have s1 : searchWith reEncrypt pdf = some (natDec n) := by
    have eq : pdf = pre ++ ((natDec n ++ b!" 0 obj\n") ++ (encryptDict e ++ (b!"\nendobj\n" ++ (mid ++
        (b!"/Encrypt " ++ natDec n ++ b!" 0 R" ++ post))))) := by
      rw [← hpdf]; simp only [List.append_assoc]
    rw [eq, searchWith_avoid reEncrypt_prefix (avoid_lines hl h1 (by decide)),
      searchWith_avoid reEncrypt_prefix (by avoid), searchWith_dict,
      searchWith_avoid reEncrypt_prefix (avoid_clash (by decide)),
      searchWith_avoid reEncrypt_prefix (avoid_lines hm h2 (by decide)), searchWith_here (reEncrypt_here n post)]
  have s2 : index (itoa (Int.ofNat n) ++ b!" 0 obj") pdf = some pre.length := by
    have eq : pdf = pre ++ ((natDec n ++ b!" 0 obj") ++ (b!"\n" ++ encryptDict e ++ b!"\nendobj\n" ++ mid ++
        (b!"/Encrypt " ++ natDec n ++ b!" 0 R" ++ post))) := by
      rw [← hpdf]; simp only [List.append_assoc, List.cons_append, List.nil_append]
    rw [eq, show itoa (Int.ofNat n) = natDec n from rfl, index_avoid (avoid_lines hl h3 no10),
      index_here (List.prefix_append _ _)]
    simp
  have s3 : pdf.drop pre.length = (natDec n ++ b!" 0 obj\n") ++ (encryptDict e ++ (b!"\nendobj\n" ++ (mid ++
        (b!"/Encrypt " ++ natDec n ++ b!" 0 R" ++ post)))) := by
    rw [← hpdf]; simp only [List.append_assoc, List.drop_left]
  have s4 : index b!"<<" (pdf.drop pre.length) = some (natDec n ++ b!" 0 obj\n").length := by
    have ha : Avoid b!"<<" (natDec n ++ b!" 0 obj\n") :=
      avoid_append (avoid_head (not_mem_natDec (by decide) n)) (avoid_clash (by decide))
    rw [s3, index_avoid ha, encryptDict_eq, index_here]
    · simp
    · simp only [List.append_assoc]; exact List.prefix_append _ _
  have s5 : pdf.drop (pre.length + (natDec n ++ b!" 0 obj\n").length) =
      encryptDict e ++ (b!"\nendobj\n" ++ (mid ++ (b!"/Encrypt " ++ natDec n ++ b!" 0 R" ++ post))) := by
    rw [← List.drop_drop, s3, List.drop_left]
  have hb := avoid_dictBody_brackets e
  have hlen' : (encryptDict e).length = (dictBody e).length + 4 := by rw [encryptDict_eq]; simp
  have s6 : ∀ r, scanDict 2000 0 0 (encryptDict e ++ r) = some (encryptDict e).length := by
    intro r
    rw [hlen', encryptDict_eq]
    exact scanDict_dict hb.1 hb.2 (by omega)
  simp only [parseEncrypt, s1, Option.bind_some, atoi_natDec n hn, s2, s4, s5, s6, Option.map_some, List.take_left]
  rw [readDict_encryptDict e h]

end Pdfer.Crypto
