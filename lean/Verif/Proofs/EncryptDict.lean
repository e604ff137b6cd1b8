import Verif.Spec.EncryptDict
import Verif.Proofs.CryptoDict
import Verif.Proofs.KeyText

/-! The encryption dictionary of a conforming writer, read by the library. -/

namespace Pdfer.Crypto

open Go Pdfer.Incremental
open Pdfer.Spec.EncryptDict

/-- Up to the first closing parenthesis. -/
def untilParen (s : Bytes) : Bytes := s.takeWhile (fun c => c != 41)

/-! ### Literals -/

theorem untilParen_of_notMem {a : Bytes} (h : (41 : UInt8) ∉ a) (s : Bytes) : untilParen (a ++ 41 :: s) = a := by
  induction a with
  | nil => simp [untilParen]
  | cons c a ih =>
    have hc : (c != 41) = true := by simp; intro e; exact h (by simp [e])
    have := ih (fun hm => h (by simp [hm]))
    simp only [untilParen, List.cons_append, List.takeWhile, hc] at this ⊢
    rw [this]

theorem index_paren (s r : Bytes) : ∃ k, index b!")" (s ++ 41 :: r) = some k ∧ (s ++ 41 :: r).take k = untilParen s := by
  induction s with
  | nil => exact ⟨0, by simp [index], by simp [untilParen]⟩
  | cons c s ih =>
    by_cases hc : c = 41
    · subst hc
      exact ⟨0, by simp [index], by simp [untilParen]⟩
    · obtain ⟨k, h1, h2⟩ := ih
      refine ⟨k + 1, ?_, ?_⟩
      · have : ¬ ([41] : Bytes).isPrefixOf (c :: (s ++ 41 :: r)) = true := by
          simp only [List.isPrefixOf_iff_prefix, List.cons_prefix_cons, List.nil_prefix, and_true]
          exact fun e => hc e.symm
        rw [List.cons_append, index, if_neg this, h1]
        rfl
      · have hc' : (c != 41) = true := by simpa using hc
        simp only [untilParen, List.cons_append, List.take_succ_cons, List.takeWhile, hc'] at h2 ⊢
        rw [h2]

theorem litEsc_plain {s : Bytes} (h : ∀ c ∈ s, ¬ Special c) : litEsc s = s := by
  induction s with
  | nil => rfl
  | cons c s ih => rw [litEsc, if_neg (h c (by simp)), ih (fun x hx => h x (by simp [hx]))]

theorem backslashes : ∀ (s : Bytes) (k : Nat), s ≠ List.replicate (k + 1) 92 ++ untilParen (litEsc s) := by
  intro s
  induction s with
  | nil => intro k h; simp [List.replicate_succ] at h
  | cons c s ih =>
    intro k h
    rw [List.replicate_succ, List.cons_append, List.cons.injEq] at h
    obtain ⟨hc, hs⟩ := h
    subst hc
    apply ih (k + 1)
    have : untilParen (litEsc (92 :: s)) = 92 :: 92 :: untilParen (litEsc s) := by
      rw [litEsc, if_pos (by decide)]
      rfl
    rw [this] at hs
    have e : List.replicate (k + 1 + 1) (92 : UInt8) = List.replicate k 92 ++ [92, 92] := by
      rw [show k + 1 + 1 = k + 2 by rfl, List.replicate_add]; rfl
    rw [e, List.append_assoc]
    exact hs

theorem until_iff (s : Bytes) : untilParen (litEsc s) = s ↔ ∀ c ∈ s, ¬ Special c := by
  constructor
  · intro h
    induction s with
    | nil => simp
    | cons c s ih =>
      by_cases hc : Special c
      · exfalso
        rw [litEsc, if_pos hc] at h
        have h92 : untilParen (92 :: c :: litEsc s) = 92 :: untilParen (c :: litEsc s) := rfl
        rw [h92, List.cons.injEq] at h
        obtain ⟨h0, h1⟩ := h
        subst h0
        have : untilParen (92 :: litEsc s) = 92 :: untilParen (litEsc s) := rfl
        rw [this] at h1
        exact backslashes s 0 h1.symm
      · rw [litEsc, if_neg hc] at h
        have hc' : (c != 41) = true := by
          simp only [bne_iff_ne]; intro e; exact hc (.inr (.inl e))
        have : untilParen (c :: litEsc s) = c :: untilParen (litEsc s) := by
          simp only [untilParen, List.takeWhile, hc']
        rw [this, List.cons.injEq] at h
        intro x hx
        rcases List.mem_cons.1 hx with rfl | hx
        · exact hc
        · exact ih h.2 x hx
  · intro h
    rw [litEsc_plain h]
    have hn : (41 : UInt8) ∉ s := fun hm => h 41 hm (.inr (.inl rfl))
    have := untilParen_of_notMem hn []
    clear h
    induction s with
    | nil => rfl
    | cons c s ih =>
      have hc : (c != 41) = true := by simp; intro e; exact hn (by simp [e])
      have hn' : (41 : UInt8) ∉ s := fun hm => hn (by simp [hm])
      have := ih hn' (untilParen_of_notMem hn' [])
      simp only [untilParen, List.takeWhile, hc] at this ⊢
      rw [this]

theorem quiet_avoid {s : Bytes} (h : Quiet s) {k : Bytes} (hk : k ∈ [b!"/O", b!"/U", b!"/Encrypt", b!"<<", b!">>"])
    (r : Bytes) (hr : Avoid k r) : Avoid k (litEsc s ++ 41 :: r) := by
  have h1 : NoOcc k (litEsc s) := Manipulate.noOcc_iff_infix.2 (h k hk)
  have h2 : (41 : UInt8) ∉ k := by
    simp only [List.mem_cons, List.not_mem_nil, or_false] at hk
    rcases hk with rfl | rfl | rfl | rfl | rfl <;> decide
  have h3 : k ≠ [] := by
    simp only [List.mem_cons, List.not_mem_nil, or_false] at hk
    rcases hk with rfl | rfl | rfl | rfl | rfl <;> decide
  have : litEsc s ++ 41 :: r = (litEsc s ++ [41]) ++ r := by simp
  rw [this]
  refine avoid_append (avoid_of_noOcc ?_ h2) hr
  intro i hp
  -- an occurrence would have to contain the parenthesis
  by_cases hi : i < (litEsc s).length
  · rw [List.drop_append_of_le_length (by omega)] at hp
    obtain ⟨t, ht⟩ := hp
    rcases List.append_eq_append_iff.1 ht with ⟨w, hw, _⟩ | ⟨w, hw, hw2⟩
    · exact h1 i ⟨w, hw.symm⟩
    · cases w with
      | nil => simp only [List.append_nil] at hw; exact h1 i (by rw [hw]; exact List.prefix_refl _)
      | cons x w =>
        simp only [List.cons_append, List.cons.injEq] at hw2
        apply h2; rw [hw, hw2.1]; simp
  · have : (litEsc s ++ [41]).drop i <:+ [41] := by
      rw [List.drop_append, List.drop_of_length_le (by omega), List.nil_append]
      exact List.drop_suffix _ _
    apply h2
    obtain ⟨t, ht⟩ := hp
    cases hkk : k with
    | nil => exact absurd hkk h3
    | cons x k' =>
      have hx : x ∈ ([41] : Bytes) := this.subset (by rw [← ht, hkk]; simp)
      simp at hx
      simp [hx]

theorem reKeyHex_paren (key s : Bytes) : reKeyHex key (key ++ 40 :: s) = none := by
  simp only [reKeyHex, reLit_append, Option.bind_some]
  have : reSp0 (40 :: s) = 40 :: s := by
    simp [reSp0, show reSpace 40 = false by decide]
  rw [this]
  rfl

theorem reKeyParen_here (key s : Bytes) : reKeyParen key (key ++ 40 :: s) = some s := by
  simp only [reKeyParen, reLit_append, Option.bind_some]
  have : reSp0 (40 :: s) = 40 :: s := by
    simp [reSp0, show reSpace 40 = false by decide]
  rw [this]
  simp [reLit]

/-- A literal value is read up to the first closing parenthesis. -/
theorem keyBytes_lit {x : UInt8} {key a s r tail : Bytes} (ha : Avoid (x :: key) a)
    (hs : Avoid (x :: key) (key ++ 40 :: (s ++ 41 :: r))) :
    keyBytes (x :: key) (a ++ ((x :: key) ++ 40 :: (s ++ 41 :: r))) (a ++ ((x :: key) ++ 40 :: (s ++ 41 :: r)) ++ tail) = untilParen s := by
  have hhex : searchWith (reKeyHex (x :: key)) (a ++ ((x :: key) ++ 40 :: (s ++ 41 :: r))) = none := by
    rw [searchWith_avoid (reKeyHex_prefix _) ha, List.cons_append, searchWith]
    have := reKeyHex_paren (x :: key) (s ++ 41 :: r)
    rw [List.cons_append] at this
    rw [this]
    exact searchWith_none (reKeyHex_prefix _) (avoid_noOcc hs (by simp))
  simp only [keyBytes, hhex]
  rw [searchWith_avoid (reKeyParen_prefix _) ha, searchWith_here (reKeyParen_here (x :: key) (s ++ 41 :: r))]
  simp only
  have hd : (a ++ ((x :: key) ++ 40 :: (s ++ 41 :: r)) ++ tail).drop
      ((a ++ ((x :: key) ++ 40 :: (s ++ 41 :: r))).length - (s ++ 41 :: r).length) = s ++ 41 :: (r ++ tail) := by
    have e1 : (a ++ ((x :: key) ++ 40 :: (s ++ 41 :: r))).length - (s ++ 41 :: r).length = (a ++ ((x :: key) ++ [40])).length := by
      simp; omega
    have e2 : a ++ ((x :: key) ++ 40 :: (s ++ 41 :: r)) ++ tail = (a ++ ((x :: key) ++ [40])) ++ (s ++ 41 :: (r ++ tail)) := by
      simp
    rw [e1, e2, List.drop_left]
  rw [hd]
  obtain ⟨k, h1, h2⟩ := index_paren s (r ++ tail)
  rw [h1]
  exact h2

/-- The nearest 32-bit integer. -/
def clamp32 (p : Int) : Int := max (-2147483648) (min p 2147483647)

theorem int_at {a s : Bytes} {p : Int} (ha : Avoid b!"/P" a) (hs : ∀ c, s.head? = some c → isDigit c = false) :
    ((searchWith (reKeyInt b!"/P") (a ++ (b!"/P " ++ itoa p ++ s))).map parseInt32).getD 0 = clamp32 p := by
  rw [searchWith_avoid (reKeyInt_prefix _) ha]
  cases p with
  | ofNat n =>
    have hd := natDec_head n s
    have h : reKeyInt b!"/P" (b!"/P " ++ itoa (Int.ofNat n) ++ s) = some (false, natDec n) := by
      have e : b!"/P " ++ itoa (Int.ofNat n) ++ s = b!"/P" ++ (32 :: (natDec n ++ s)) := by simp [itoa]
      rw [e]
      simp only [reKeyInt, reLit_append, Option.bind_some]
      rw [reSp1_one (fun c hc => isDigit_not_reSpace (hd c hc))]
      simp only [Option.bind_some]
      have : reLit b!"-" (natDec n ++ s) = none := by
        apply Classical.byContradiction
        intro hne
        obtain ⟨t, ht⟩ := reLit_prefix hne
        have := hd 45 (by rw [← ht]; rfl)
        exact absurd this (by decide)
      rw [this, reNum_natDec hs]
      rfl
    rw [searchWith_here h]
    simp only [Option.map_some, Option.getD_some, parseInt32, digitsVal_natDec, clamp32]
    simp only [Int.ofNat_eq_natCast]
    omega
  | negSucc n =>
    have h : reKeyInt b!"/P" (b!"/P " ++ itoa (Int.negSucc n) ++ s) = some (true, natDec (n + 1)) := by
      have e : b!"/P " ++ itoa (Int.negSucc n) ++ s = b!"/P" ++ (32 :: (b!"-" ++ (natDec (n + 1) ++ s))) := by simp [itoa]
      rw [e]
      simp only [reKeyInt, reLit_append, Option.bind_some]
      rw [reSp1_one (fun c hc => by simp at hc; subst hc; decide)]
      simp only [Option.bind_some]
      rw [reLit_append]
      simp only
      rw [reNum_natDec hs]
      rfl
    rw [searchWith_here h]
    simp only [Option.map_some, Option.getD_some, parseInt32, digitsVal_natDec, clamp32]
    rw [Int.negSucc_eq]
    omega

/-! ### The dictionary -/

/-- The text up to the number of /P. -/
def head1 (d : Stated) : Bytes :=
  b!"<</Filter/Standard/V " ++ natDec d.v ++ b!"/R " ++ natDec d.r ++ b!"/Length " ++ natDec d.bits

theorem not_digit_slash (s : Bytes) : ∀ c, (47 :: s).head? = some c → isDigit c = false := by
  intro c hc; simp at hc; subst hc; decide

theorem iso_v (d : Stated) (h : Fits d) : topNum b!"/V" (isoDict d) = d.v := by
  have eq : isoDict d = b!"<</Filter/Standard" ++ (b!"/V" ++ b!" " ++ natDec d.v ++ (47 :: (b!"R " ++ natDec d.r ++
      b!"/Length " ++ natDec d.bits ++ b!"/P " ++ itoa d.p ++ b!"/O(" ++ litEsc d.o ++ b!")/U(" ++ litEsc d.u ++ b!")>>"))) := by
    simp [isoDict]
  rw [eq]
  refine topNum_at ?_ ?_ ?_ (not_digit_slash _) h.v.2
  · avoid
  · avoid
  · avoid

theorem iso_r (d : Stated) (h : Fits d) : topNum b!"/R" (isoDict d) = d.r := by
  have eq : isoDict d = (b!"<</Filter/Standard/V " ++ natDec d.v) ++ (b!"/R" ++ b!" " ++ natDec d.r ++ (47 :: (
      b!"Length " ++ natDec d.bits ++ b!"/P " ++ itoa d.p ++ b!"/O(" ++ litEsc d.o ++ b!")/U(" ++ litEsc d.u ++ b!")>>"))) := by
    simp [isoDict]
  rw [eq]
  refine topNum_at ?_ ?_ ?_ (not_digit_slash _) (by have := h.r.2; omega)
  · avoid
  · avoid
  · avoid

theorem iso_bits (d : Stated) (h : Fits d) : topLength (isoDict d) = d.bits / 8 := by
  have eq : isoDict d = (b!"<</Filter/Standard/V " ++ natDec d.v ++ b!"/R " ++ natDec d.r) ++ (b!"/Length" ++ b!" " ++
      natDec d.bits ++ (47 :: (b!"P " ++ itoa d.p ++ b!"/O(" ++ litEsc d.o ++ b!")/U(" ++ litEsc d.u ++ b!")>>"))) := by
    simp [isoDict]
  rw [eq]
  refine topLength_at ?_ ?_ (not_digit_slash _) h.bits.2 (by have := h.bits.1; omega)
  · avoid
  · avoid

theorem iso_p (d : Stated) : ((searchWith (reKeyInt b!"/P") (isoDict d)).map parseInt32).getD 0 = clamp32 d.p := by
  have eq : isoDict d = head1 d ++ (b!"/P " ++ itoa d.p ++ (47 :: (b!"O(" ++ litEsc d.o ++ b!")/U(" ++ litEsc d.u ++ b!")>>"))) := by
    simp [isoDict, head1]
  rw [eq]
  refine int_at ?_ (not_digit_slash _)
  unfold head1; avoid

theorem iso_o (d : Stated) (h : Fits d) (tail : Bytes) :
    keyBytes b!"/O" (isoDict d) (isoDict d ++ tail) = untilParen (litEsc d.o) := by
  have eq : isoDict d = (head1 d ++ b!"/P " ++ itoa d.p) ++ (b!"/O" ++ 40 :: (litEsc d.o ++ 41 ::
      (b!"/U(" ++ litEsc d.u ++ b!")>>"))) := by
    simp [isoDict, head1]
  rw [eq]
  refine keyBytes_lit (x := 47) (key := b!"O") ?_ ?_
  · unfold head1; avoid
  · have hu := quiet_avoid h.u (k := b!"/O") (by simp) b!">>" (avoid_clash (by decide))
    have ho := quiet_avoid h.o (k := b!"/O") (by simp) (b!"/U(" ++ litEsc d.u ++ b!")>>") (by
      have := avoid_append (avoid_clash (a := b!"/U(") (by decide)) hu
      simpa using this)
    have := avoid_append (avoid_clash (a := b!"O(") (by decide)) ho
    simpa using this

theorem iso_u (d : Stated) (h : Fits d) (tail : Bytes) :
    keyBytes b!"/U" (isoDict d) (isoDict d ++ tail) = untilParen (litEsc d.u) := by
  have eq : isoDict d = (head1 d ++ b!"/P " ++ itoa d.p ++ b!"/O(" ++ (litEsc d.o ++ [41])) ++ (b!"/U" ++ 40 :: (litEsc d.u ++ 41 ::
      b!">>")) := by
    simp [isoDict, head1]
  rw [eq]
  have ho := quiet_avoid h.o (k := b!"/U") (by simp) [] (avoid_nil _)
  refine keyBytes_lit (x := 47) (key := b!"U") ?_ ?_
  · unfold head1
    refine avoid_append ?_ ho
    avoid
  · have hu := quiet_avoid h.u (k := b!"/U") (by simp) b!">>" (avoid_clash (by decide))
    have := avoid_append (avoid_clash (a := b!"U(") (by decide)) hu
    simpa using this

theorem avoid_iso_encrypt (d : Stated) (h : Fits d) : Avoid b!"/Encrypt" (isoDict d) := by
  have eq : isoDict d = head1 d ++ (b!"/P " ++ (itoa d.p ++ (b!"/O(" ++ ((litEsc d.o ++ 41 :: []) ++ (b!"/U(" ++ (litEsc d.u ++ 41 ::
      b!">>")))))) := by
    simp [isoDict, head1]
  rw [eq]
  have ho := quiet_avoid h.o (k := b!"/Encrypt") (by simp) [] (avoid_nil _)
  have hu := quiet_avoid h.u (k := b!"/Encrypt") (by simp) b!">>" (avoid_clash (by decide))
  unfold head1
  refine avoid_append (by avoid) (avoid_append (avoid_clash (by decide)) (avoid_append (by avoid)
    (avoid_append (avoid_clash (by decide)) (avoid_append ho (avoid_append (avoid_clash (by decide)) hu)))))

/-- The entries, between the brackets. -/
def isoBody (d : Stated) : Bytes :=
  b!"/Filter/Standard/V " ++ natDec d.v ++ b!"/R " ++ natDec d.r ++ b!"/Length " ++ natDec d.bits ++
  b!"/P " ++ itoa d.p ++ b!"/O(" ++ (litEsc d.o ++ 41 :: []) ++ b!"/U(" ++ (litEsc d.u ++ 41 :: [])

theorem isoDict_eq (d : Stated) : isoDict d = b!"<<" ++ isoBody d ++ b!">>" := by
  simp [isoDict, isoBody]

theorem avoid_iso_brackets (d : Stated) (h : Fits d) : Avoid b!"<<" (isoBody d) ∧ Avoid b!">>" (isoBody d) := by
  have n60 : ∀ n, (60 : UInt8) ∉ natDec n := fun n => not_mem_natDec (by decide) n
  have n62 : ∀ n, (62 : UInt8) ∉ natDec n := fun n => not_mem_natDec (by decide) n
  have i60 : ∀ n : Int, (60 : UInt8) ∉ itoa n := by intro n; cases n <;> simp [itoa, n60]
  have i62 : ∀ n : Int, (62 : UInt8) ∉ itoa n := by intro n; cases n <;> simp [itoa, n62]
  constructor
  · have ho := quiet_avoid h.o (k := b!"<<") (by simp) [] (avoid_nil _)
    have hu := quiet_avoid h.u (k := b!"<<") (by simp) [] (avoid_nil _)
    unfold isoBody
    repeat' (first
      | exact ho | exact hu
      | exact avoid_nil _ | exact avoid_clash (by decide)
      | exact avoid_head (n60 _) | exact avoid_head (i60 _)
      | apply avoid_append)
  · have ho := quiet_avoid h.o (k := b!">>") (by simp) [] (avoid_nil _)
    have hu := quiet_avoid h.u (k := b!">>") (by simp) [] (avoid_nil _)
    unfold isoBody
    repeat' (first
      | exact ho | exact hu
      | exact avoid_nil _ | exact avoid_clash (by decide)
      | exact avoid_head (n62 _) | exact avoid_head (i62 _)
      | apply avoid_append)

/-- The record read. -/
def isoRead (d : Stated) : Enc :=
  { v := d.v, r := d.r, keyLength := d.bits / 8, o := untilParen (litEsc d.o), u := untilParen (litEsc d.u),
    p := clamp32 d.p, encryptMetadata := true, ue := [], oe := [], encryptKey := [], keyTail := [] }

theorem readDict_iso (d : Stated) (h : Fits d) (tail : Bytes) : readDict (isoDict d) (isoDict d ++ tail) = isoRead d := by
  have hm : contains (isoDict d) b!"/EncryptMetadata false" = false := by
    have : Avoid b!"/EncryptMetadata false" (isoDict d) := by
      intro i hi s hp
      apply avoid_iso_encrypt d h i hi s
      exact List.IsPrefix.trans ⟨b!"Metadata false", rfl⟩ hp
    have := avoid_noOcc this (by decide)
    rw [noOcc_iff_index] at this
    simp [contains, this]
  unfold readDict
  simp only [iso_v d h, iso_r d h, iso_bits d h, iso_p, iso_o d h, iso_u d h, hm]
  have h1 : d.v ≠ 0 := by have := h.v.1; omega
  have h2 : d.r ≠ 0 := by have := h.r.1; omega
  have h3 : d.bits / 8 ≠ 0 := by have := h.bits.1; omega
  have h4 : ¬ d.r ≥ 5 := by have := h.r.2; omega
  simp only [if_neg h1, if_neg h2, if_neg h3, if_neg h4]
  rfl

theorem parse_iso (d : Stated) (h : Fits d) (n : Nat)
    (hn : n ≤ 9223372036854775807) (pre mid post : Bytes) (hl : Lines pre) (hm : Lines mid)
    (h1 : NoOcc b!"/Encrypt" pre) (h2 : NoOcc b!"/Encrypt" mid) (h3 : NoOcc (natDec n ++ b!" 0 obj") pre) :
    parseEncrypt (pre ++ (natDec n ++ b!" 0 obj\n" ++ isoDict d ++ b!"\nendobj\n") ++ mid ++
      (b!"/Encrypt " ++ natDec n ++ b!" 0 R" ++ post)) = some (isoRead d) := by
  have no10 : (10 : UInt8) ∉ natDec n ++ b!" 0 obj" := by
    simp only [List.mem_append, not_or]; exact ⟨not_mem_natDec (by decide) n, by decide⟩
  generalize hpdf : pre ++ (natDec n ++ b!" 0 obj\n" ++ isoDict d ++ b!"\nendobj\n") ++ mid ++
      (b!"/Encrypt " ++ natDec n ++ b!" 0 R" ++ post) = pdf
  have s1 : searchWith reEncrypt pdf = some (natDec n) := by
    have eq : pdf = pre ++ ((natDec n ++ b!" 0 obj\n") ++ (isoDict d ++ (b!"\nendobj\n" ++ (mid ++
        (b!"/Encrypt " ++ natDec n ++ b!" 0 R" ++ post))))) := by
      rw [← hpdf]; simp only [List.append_assoc]
    rw [eq, searchWith_avoid reEncrypt_prefix (avoid_lines hl h1 (by decide)),
      searchWith_avoid reEncrypt_prefix (by avoid), searchWith_avoid reEncrypt_prefix (avoid_iso_encrypt d h),
      searchWith_avoid reEncrypt_prefix (avoid_clash (by decide)),
      searchWith_avoid reEncrypt_prefix (avoid_lines hm h2 (by decide)), searchWith_here (reEncrypt_here n post)]
  have s2 : index (itoa (Int.ofNat n) ++ b!" 0 obj") pdf = some pre.length := by
    have eq : pdf = pre ++ ((natDec n ++ b!" 0 obj") ++ (b!"\n" ++ isoDict d ++ b!"\nendobj\n" ++ mid ++
        (b!"/Encrypt " ++ natDec n ++ b!" 0 R" ++ post))) := by
      rw [← hpdf]; simp only [List.append_assoc, List.cons_append, List.nil_append]
    rw [eq, show itoa (Int.ofNat n) = natDec n from rfl, index_avoid (avoid_lines hl h3 no10),
      index_here (List.prefix_append _ _)]
    simp
  have s3 : pdf.drop pre.length = (natDec n ++ b!" 0 obj\n") ++ (isoDict d ++ (b!"\nendobj\n" ++ (mid ++
        (b!"/Encrypt " ++ natDec n ++ b!" 0 R" ++ post)))) := by
    rw [← hpdf]; simp only [List.append_assoc, List.drop_left]
  have s4 : index b!"<<" (pdf.drop pre.length) = some (natDec n ++ b!" 0 obj\n").length := by
    have ha : Avoid b!"<<" (natDec n ++ b!" 0 obj\n") :=
      avoid_append (avoid_head (not_mem_natDec (by decide) n)) (avoid_clash (by decide))
    rw [s3, index_avoid ha, isoDict_eq, index_here]
    · simp
    · simp only [List.append_assoc]; exact List.prefix_append _ _
  have s5 : pdf.drop (pre.length + (natDec n ++ b!" 0 obj\n").length) =
      isoDict d ++ (b!"\nendobj\n" ++ (mid ++ (b!"/Encrypt " ++ natDec n ++ b!" 0 R" ++ post))) := by
    rw [← List.drop_drop, s3, List.drop_left]
  have hb := avoid_iso_brackets d h
  have hlen' : (isoDict d).length = (isoBody d).length + 4 := by rw [isoDict_eq]; simp
  have s6 : ∀ r, scanDict 2000 0 0 (isoDict d ++ r) = some (isoDict d).length := by
    intro r
    rw [hlen', isoDict_eq]
    exact scanDict_dict hb.1 hb.2 (by have := h.len; omega)
  simp only [parseEncrypt, s1, Option.bind_some, atoi_natDec n hn, s2, s4, s5, s6, Option.map_some, List.take_left]
  rw [readDict_iso d h]

/-! ### The identifier of the file -/

theorem reIDHex_prefix (s : Bytes) (h : reIDHex s ≠ none) : b!"/ID" <+: s := by
  apply reLit_prefix
  intro e; apply h; simp [reIDHex, e]

theorem reIDHex2_prefix (s : Bytes) (h : reIDHex2 s ≠ none) : b!"/ID" <+: s := by
  have : b!"/ID[<" <+: s := by
    apply reLit_prefix
    intro e; apply h; simp [reIDHex2, e]
  exact List.IsPrefix.trans ⟨b!"[<", rfl⟩ this

theorem reIDParen_prefix (s : Bytes) (h : reIDParen s ≠ none) : b!"/ID" <+: s := by
  apply reLit_prefix
  intro e; apply h; simp [reIDParen, e]

theorem reSp0_other {c : UInt8} (h : reSpace c = false) (s : Bytes) : reSp0 (c :: s) = c :: s := by
  simp [reSp0, h]

theorem fileID_lit (pre s post : Bytes) (h1 : Avoid b!"/ID" pre)
    (h2 : NoOcc b!"/ID" (b!"ID[(" ++ (s ++ 41 :: post))) :
    extractFileID (pre ++ (b!"/ID[(" ++ (s ++ 41 :: post))) = untilParen s := by
  have n1 : searchWith reIDHex (pre ++ (b!"/ID[(" ++ (s ++ 41 :: post))) = none := by
    rw [searchWith_avoid reIDHex_prefix h1, List.cons_append, searchWith]
    have : reIDHex (47 :: (b!"ID[(" ++ (s ++ 41 :: post))) = none := by
      have e : (47 :: (b!"ID[(" ++ (s ++ 41 :: post))) = b!"/ID" ++ (91 :: 40 :: (s ++ 41 :: post)) := by simp
      rw [e]
      simp only [reIDHex, reLit_append, Option.bind_some]
      rw [reSp0_other (by decide)]
      have : reLit b!"[" (91 :: 40 :: (s ++ 41 :: post)) = some (40 :: (s ++ 41 :: post)) := by simp [reLit]
      rw [this]
      simp only [Option.bind_some]
      rw [reSp0_other (by decide)]
      rfl
    rw [this]
    exact searchWith_none reIDHex_prefix h2
  have n2 : searchWith reIDHex2 (pre ++ (b!"/ID[(" ++ (s ++ 41 :: post))) = none := by
    rw [searchWith_avoid reIDHex2_prefix h1, List.cons_append, searchWith]
    have : reIDHex2 (47 :: (b!"ID[(" ++ (s ++ 41 :: post))) = none := by
      simp [reIDHex2, reLit]
    rw [this]
    exact searchWith_none reIDHex2_prefix h2
  have n3 : searchWith reIDParen (pre ++ (b!"/ID[(" ++ (s ++ 41 :: post))) = some (s ++ 41 :: post) := by
    rw [searchWith_avoid reIDParen_prefix h1]
    apply searchWith_here
    have e : b!"/ID[(" ++ (s ++ 41 :: post) = b!"/ID" ++ (91 :: 40 :: (s ++ 41 :: post)) := by simp
    rw [e]
    simp only [reIDParen, reLit_append, Option.bind_some]
    rw [reSp0_other (by decide)]
    have : reLit b!"[" (91 :: 40 :: (s ++ 41 :: post)) = some (40 :: (s ++ 41 :: post)) := by simp [reLit]
    rw [this]
    simp only [Option.bind_some]
    rw [reSp0_other (by decide)]
    simp [reLit]
  simp only [extractFileID, n1, n2, n3, Option.map_none, Option.getD_none, List.length_nil]
  obtain ⟨k, h1, h2⟩ := index_paren s post
  simp only [h1, h2]
  simp

end Pdfer.Crypto
