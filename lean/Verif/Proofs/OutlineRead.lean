import Verif.Spec.OutlineRead
import Verif.Proofs.Outline
import Verif.Proofs.CryptoDict
import Verif.Proofs.PageTree
import Verif.Proofs.Strings
import Verif.Proofs.ObjStm

/-! Reading the objects `SetBookmarks` stores. -/

namespace Pdfer.Outline

open Pdfer.Go Pdfer.Writer Pdfer.Strings Pdfer.Manipulate Pdfer.Spec.Outline Pdfer.Crypto

/-! ### Slashes -/

theorem decodeRune_slash (b : UInt8) (s : Bytes) (h : (decodeRune b s).1 = 47) : b = 47 := by
  unfold decodeRune at h
  split at h
  · exact UInt8.toNat_inj.1 h
  · split at h
    · rename_i hb
      simp only [Bool.and_eq_true, decide_eq_true_eq, UInt8.le_iff_toNat_le] at hb
      have hb1 : 194 ≤ b.toNat := hb.1
      split at h
      · split at h
        · simp only at h; omega
        · simp at h
      · simp at h
    · split at h
      · rename_i hb
        simp only [Bool.and_eq_true, decide_eq_true_eq, UInt8.le_iff_toNat_le] at hb
        have hb1 : 224 ≤ b.toNat := hb.1
        split at h
        · split at h
          · rename_i c d _ hc
            simp only [Bool.and_eq_true] at hc
            simp only at h
            have hc1 := hc.1
            unfold secondOk at hc1
            split at hc1
            · simp only [Bool.and_eq_true, decide_eq_true_eq, UInt8.le_iff_toNat_le] at hc1
              have : 160 ≤ c.toNat := hc1.1
              omega
            · rename_i hne
              have : b.toNat ≠ 224 := by
                intro e; apply hne; simp only [beq_iff_eq]; exact UInt8.toNat_inj.1 e
              omega
          · simp at h
        · simp at h
      · split at h
        · rename_i hb
          simp only [Bool.and_eq_true, decide_eq_true_eq, UInt8.le_iff_toNat_le] at hb
          have hb1 : 240 ≤ b.toNat := hb.1
          split at h
          · split at h
            · rename_i c d e _ hc
              simp only [Bool.and_eq_true] at hc
              simp only at h
              have hc1 := hc.1.1
              unfold secondOk at hc1
              by_cases hbe : b.toNat = 240
              · have : b = 0xF0 := UInt8.toNat_inj.1 hbe
                subst this
                simp at hc1
                have : 144 ≤ c.toNat := by have := hc1.1; rwa [UInt8.le_iff_toNat_le] at this
                omega
              · omega
            · simp at h
          · simp at h
        · simp at h

theorem runes_slash (k : Nat) (s : Bytes) (h : 47 ∈ runesFrom k s) : (47 : UInt8) ∈ s := by
  induction s generalizing k with
  | nil => cases k <;> simp [runesFrom] at h
  | cons b s ih =>
    cases k with
    | succ k => rw [runesFrom] at h; simp [ih k h]
    | zero =>
      rw [runesFrom] at h
      simp only [List.mem_cons] at h
      rcases h with h | h
      · simp [decodeRune_slash b s h.symm]
      · simp [ih _ h]

theorem escape_slash {s : Bytes} (h : (47 : UInt8) ∉ s) : (47 : UInt8) ∉ escapePDFString s := by
  intro hm
  unfold escapePDFString at hm
  obtain ⟨r, hr, hx⟩ := List.mem_flatMap.1 hm
  apply h
  apply runes_slash 0 s
  by_cases h47 : r = 47
  · subst h47; exact hr
  · exfalso
    unfold escRune at hx
    split at hx
    · revert hx; decide
    split at hx
    · revert hx; decide
    split at hx
    · revert hx; decide
    split at hx
    · revert hx; decide
    split at hx
    · revert hx; decide
    split at hx
    · revert hx; decide
    by_cases h80 : r < 0x80
    · unfold writeRune at hx
      rw [if_pos h80] at hx
      simp only [List.mem_singleton] at hx
      apply h47
      have := congrArg UInt8.toNat hx
      rw [UInt8.toNat_ofNat'] at this
      simp at this
      omega
    · have := writeRune_high r (by omega) 47 hx
      revert this; decide

/-! ### Looking up a key -/

theorem reTok_prefix {key : Bytes} (s : Bytes) (h : reTok key s ≠ none) : key <+: s := by
  apply reLit_prefix
  intro e; apply h; simp [reTok, e]

theorem reName_prefix {key : Bytes} (s : Bytes) (h : reName key s ≠ none) : key <+: s := by
  apply reLit_prefix
  intro e; apply h; simp [reName, e]

theorem reArr_pre {key : Bytes} (s : Bytes) (h : reArr key s ≠ none) : key <+: s := by
  apply reLit_prefix
  intro e; apply h; simp [reArr, e]

theorem xDict_absent {key s : Bytes} (hk : key ≠ []) (h : Avoid key s) : xDictValue s key = [] := by
  have hn : ∀ {α : Type} (p : Bytes → Option α), (∀ s, p s ≠ none → key <+: s) → searchWith p s = none := by
    intro α p hp
    have := searchWith_avoid hp (s := []) h
    rw [List.append_nil] at this
    rw [this]
    apply Classical.byContradiction
    intro hne
    exact hk (List.prefix_nil.1 (hp [] hne))
  unfold xDictValue simpleValue
  rw [hn _ reTok_prefix, hn _ reName_prefix]
  simp only [Option.map_none]
  rw [hn _ reArr_pre]

theorem tok_space : tokByte 32 = false := by decide

theorem takeWhile_stop (v rest : Bytes) : (v ++ 32 :: rest).takeWhile tokByte = v.takeWhile tokByte := by
  induction v with
  | nil => simp [tok_space]
  | cons c v ih =>
    rw [List.cons_append, List.takeWhile_cons, List.takeWhile_cons, ih]

theorem xDict_found {key a v rest : Bytes} (h : Avoid key a) (hv : ∃ c t, v = c :: t ∧ tokByte c = true) :
    xDictValue (a ++ (entry key (some v) ++ rest)) key = firstWord v := by
  obtain ⟨c, t, rfl, hc⟩ := hv
  have hs : reSpace c = false := by
    simp only [tokByte, Bool.and_eq_true, Bool.not_eq_true'] at hc; exact hc.1.1
  have h1 : reTok key (entry key (some (c :: t)) ++ rest) =
      some (firstWord (c :: t), ((c :: t) ++ 32 :: rest).dropWhile tokByte) := by
    unfold reTok
    have e : entry key (some (c :: t)) ++ rest = key ++ (32 :: ((c :: t) ++ 32 :: rest)) := by
      simp [entry]
    rw [e, reLit_append, Option.bind_some]
    have e2 : reSp1 (32 :: ((c :: t) ++ 32 :: rest)) = some ((c :: t) ++ 32 :: rest) := by
      simp only [reSp1]
      rw [if_pos (by decide), List.cons_append, List.dropWhile_cons_of_neg (by rw [hs]; decide)]
    rw [e2, Option.bind_some, takeWhile_stop, if_neg]
    · rfl
    · rw [List.takeWhile_cons, if_pos hc]; simp
  unfold xDictValue simpleValue
  rw [searchWith_avoid reTok_prefix h, searchWith_here h1]

theorem firstWord_digits {v : Bytes} (h : ∀ c ∈ v, tokByte c = true) (w : Bytes) : firstWord (v ++ 32 :: w) = v := by
  unfold firstWord
  rw [takeWhile_stop]
  induction v with
  | nil => rfl
  | cons c v ih => rw [List.takeWhile_cons, if_pos (h c (by simp)), ih (fun x hx => h x (by simp [hx]))]

theorem digit_tok : ∀ c : UInt8, isDigit c = true → tokByte c = true := by
  apply forall_byte; decide +kernel

theorem digit_isSpace {c : UInt8} (h : isDigit c = true) : isSpace c = false := by
  revert c
  apply forall_byte
  decide +kernel

theorem itoa_nat {n : Int} (h : 0 < n) : itoa n = natDec n.toNat := by
  obtain ⟨m, rfl⟩ := Int.eq_ofNat_of_zero_le (Int.le_of_lt h)
  rfl

theorem ref_nat {n : Int} (h : 0 < n) : ref n = natDec n.toNat ++ 32 :: b!"0 R" := by
  unfold ref
  rw [itoa_nat h]

theorem firstWord_ref {n : Int} (h : 0 < n) : firstWord (ref n) = natDec n.toNat := by
  rw [ref_nat h]
  exact firstWord_digits (fun c hc => digit_tok c (natDec_digits _ c hc)) _

theorem ref_head {n : Int} (h : 0 < n) : ∃ c t, ref n = c :: t ∧ tokByte c = true := by
  rw [ref_nat h]
  match hd : natDec n.toNat, natDec_ne_nil n.toNat with
  | c :: r, _ =>
    refine ⟨c, _, rfl, digit_tok c (natDec_digits n.toNat c (by rw [hd]; simp))⟩

theorem parse_word {n : Int} (h : 0 < n) (h2 : n ≤ 9223372036854775807) : parseObjectRef (natDec n.toNat) = some n := by
  unfold parseObjectRef
  have : fields (natDec n.toNat) = [natDec n.toNat] := by
    have := (XRefStream.fields_spaced [natDec n.toNat] (by
      intro w hw
      simp only [List.mem_singleton] at hw
      subst hw
      exact ⟨natDec_ne_nil _, fun c hc => digit_isSpace (natDec_digits _ c hc)⟩)).1
    simpa [Spec.spaced] using this
  rw [this]
  simp only
  rw [atoi_natDec _ (by omega)]
  simp; omega

theorem natDec_nonempty (n : Nat) : natDec n ≠ [] := natDec_ne_nil n

/-! ### Which parts avoid a key -/

theorem avoid_noKey {key v : Bytes} {c : UInt8} (hc : c ∉ key) (h : ¬ key <:+: v) (hk : key ≠ []) : Avoid key (v ++ [c]) := by
  intro i hi s hp
  simp only [List.length_append, List.length_singleton] at hi
  rw [List.drop_append_of_le_length (by omega), List.append_assoc] at hp
  obtain ⟨t, ht⟩ := hp
  rcases List.append_eq_append_iff.1 ht with ⟨u, hu, _⟩ | ⟨u, hu, hu2⟩
  · apply h
    refine ⟨v.take i, u, ?_⟩
    rw [List.append_assoc, ← hu, List.take_append_drop]
  · cases u with
    | nil =>
      apply h
      simp only [List.append_nil] at hu
      exact ⟨v.take i, [], by rw [List.append_nil, hu, List.take_append_drop]⟩
    | cons d u =>
      simp only [List.singleton_append, List.cons_append, List.cons.injEq] at hu2
      apply hc
      rw [hu, ← hu2.1]; simp

/-- A value that cannot be taken for a key. -/
def Safe (o : Option Bytes) : Prop := ∀ v, o = some v → ∀ k ∈ readKeys, Avoid k (v ++ b!" ")

theorem safe_none : Safe none := by intro v h; simp at h

theorem safe_noSlash {v : Bytes} (h : (47 : UInt8) ∉ v) : Safe (some v) := by
  intro w hw k hk
  simp only [Option.some.injEq] at hw
  subst hw
  have : ∃ t, k = 47 :: t := by
    simp only [readKeys, List.mem_cons, List.not_mem_nil, or_false] at hk
    rcases hk with rfl | rfl | rfl | rfl | rfl <;> exact ⟨_, rfl⟩
  obtain ⟨t, rfl⟩ := this
  apply avoid_head
  simp [h]

theorem slash_ref (n : Int) : (47 : UInt8) ∉ ref n := by
  unfold ref
  intro h
  simp only [List.mem_append] at h
  rcases h with h | h
  · exact slash_not_itoa _ h
  · revert h; decide

theorem safe_ref (n : Int) : Safe (some (ref n)) := safe_noSlash (slash_ref n)

theorem safe_optRef (o : Option Int) : Safe (o.map ref) := by
  cases o with
  | none => exact safe_none
  | some n => exact safe_ref n

def allKeys : List Bytes := [b!"/A", b!"/Count", b!"/Dest", b!"/First", b!"/Last", b!"/Parent", b!"/Prev", b!"/Title", b!"/Next"]

theorem keys_clash : ∀ k' ∈ allKeys, ∀ k ∈ readKeys, k' ≠ k → clash k (k' ++ b!" ") = true := by decide

theorem avoid_entry {k k' : Bytes} {o : Option Bytes} (hk : k ∈ readKeys) (hk' : k' ∈ allKeys) (hne : k' ≠ k) (ho : Safe o) :
    Avoid k (entry k' o) := by
  cases o with
  | none => exact avoid_nil _
  | some v =>
    simp only [entry]
    rw [List.append_assoc]
    exact avoid_append (avoid_clash (keys_clash k' hk' k hk hne)) (ho v rfl k hk)

/-! ### An item -/

/-- The object text of an item in a file. -/
def objectText (n : Int) (t : Bytes) : Bytes := itoa n ++ b!" 0 obj\n" ++ t ++ b!"\nendobj"

theorem avoid_entries {k : Bytes} (es : List (Bytes × Option Bytes)) (h : ∀ e ∈ es, Avoid k (entry e.1 e.2)) :
    Avoid k (es.flatMap fun e => entry e.1 e.2) := by
  induction es with
  | nil => exact avoid_nil _
  | cons e es ih =>
    rw [List.flatMap_cons]
    exact avoid_append (h e (by simp)) (ih (fun x hx => h x (by simp [hx])))

/-- Looking up a key in an object whose dictionary is a list of entries with safe values and distinct keys. -/
theorem lookup_entries {k : Bytes} (hk : k ∈ readKeys) (n : Int) (es1 es2 : List (Bytes × Option Bytes)) (o : Option Bytes)
    (hes : ∀ e ∈ es1 ++ es2, e.1 ∈ allKeys ∧ e.1 ≠ k ∧ Safe e.2)
    (ho : ∀ v, o = some v → ∃ c t, v = c :: t ∧ tokByte c = true) :
    xDictValue (objectText n (b!"<<" ++ (es1.flatMap fun e => entry e.1 e.2) ++ entry k o ++
      (es2.flatMap fun e => entry e.1 e.2) ++ b!">>")) k = (o.map firstWord).getD [] := by
  have hshape : ∃ t, k = 47 :: t := by
    simp only [readKeys, List.mem_cons, List.not_mem_nil, or_false] at hk
    rcases hk with rfl | rfl | rfl | rfl | rfl <;> exact ⟨_, rfl⟩
  obtain ⟨kt, hkt⟩ := hshape
  have hpre : Avoid k (itoa n ++ b!" 0 obj\n" ++ b!"<<") := by
    subst hkt
    apply avoid_append
    · apply avoid_append
      · exact avoid_head (slash_not_itoa _)
      · exact avoid_head (by decide)
    · exact avoid_head (by decide)
  have hpost : Avoid k (b!">>" ++ b!"\nendobj") := by subst hkt; exact avoid_head (by decide)
  have h1 : Avoid k (es1.flatMap fun e => entry e.1 e.2) :=
    avoid_entries es1 (fun e he => avoid_entry hk (hes e (by simp [he])).1 (hes e (by simp [he])).2.1 (hes e (by simp [he])).2.2)
  have h2 : Avoid k (es2.flatMap fun e => entry e.1 e.2) :=
    avoid_entries es2 (fun e he => avoid_entry hk (hes e (by simp [he])).1 (hes e (by simp [he])).2.1 (hes e (by simp [he])).2.2)
  unfold objectText
  generalize es1.flatMap (fun e => entry e.1 e.2) = A at *
  generalize es2.flatMap (fun e => entry e.1 e.2) = B at *
  cases o with
  | none =>
    simp only [Option.map_none, Option.getD_none]
    apply xDict_absent (by rw [hkt]; simp)
    have : itoa n ++ b!" 0 obj\n" ++ (b!"<<" ++ A ++ entry k none ++ B ++ b!">>") ++ b!"\nendobj" =
        (itoa n ++ b!" 0 obj\n" ++ b!"<<") ++ (A ++ (B ++ (b!">>" ++ b!"\nendobj"))) := by simp [entry]
    rw [this]
    exact avoid_append hpre (avoid_append h1 (avoid_append h2 hpost))
  | some v =>
    have : itoa n ++ b!" 0 obj\n" ++ (b!"<<" ++ A ++ entry k (some v) ++ B ++ b!">>") ++ b!"\nendobj" =
        (itoa n ++ b!" 0 obj\n" ++ b!"<<" ++ A) ++ (entry k (some v) ++ (B ++ b!">>" ++ b!"\nendobj")) := by simp
    rw [this, xDict_found (avoid_append hpre h1) (ho v rfl)]
    rfl

/-! ### The values of an item -/

theorem safe_dest (pages : Map Int Int) (page : Int) (dest : Bytes) (h : ∀ k ∈ readKeys, ¬ k <:+: dest) :
    Safe (destination pages page dest) := by
  unfold destination
  split
  · cases hp : pages.get page with
    | none => exact safe_none
    | some n =>
      simp only [Option.map_some]
      have e : asValue (b!"[" ++ itoa n ++ b!" 0 R /XYZ 0 792 null]") = b!"([" ++ itoa n ++ b!" 0 R /XYZ 0 792 null])" := by
        rw [asValue, if_neg]
        · simp
        · rintro (h | h)
          · obtain ⟨t, ht⟩ := h; simp at ht
          · obtain ⟨t, ht⟩ := h
            have := congrArg List.reverse ht
            simp at this
      rw [e]
      intro v hv k hk
      simp only [Option.some.injEq] at hv
      subst hv
      have hclash : ∀ k ∈ readKeys, clash k b!" 0 R /XYZ 0 792 null])" = true ∧ clash k b!"([" = true ∧ clash k b!" " = true ∧ k.head? = some 47 := by
        decide
      obtain ⟨c1, c2, c3, c4⟩ := hclash k hk
      have : Avoid k (itoa n) := by
        cases k with
        | nil => simp at c4
        | cons c t => simp at c4; subst c4; exact avoid_head (slash_not_itoa _)
      exact avoid_append (avoid_append (avoid_append (avoid_clash c2) this) (avoid_clash c1)) (avoid_clash c3)
  · split
    · exact safe_none
    · intro v hv k hk
      simp only [Option.some.injEq] at hv
      subst hv
      have hk32 : ∀ k ∈ readKeys, (32 : UInt8) ∉ k ∧ (41 : UInt8) ∉ k ∧ k ≠ [] ∧ clash k b!"(" = true ∧ clash k b!" " = true := by decide
      obtain ⟨k1, k2, k3, k4, k5⟩ := hk32 k hk
      unfold asValue
      split
      · exact avoid_noKey k1 (h k hk) k3
      · have := avoid_noKey k2 (h k hk) k3
        rw [List.append_assoc b!"("]
        exact avoid_append (avoid_append (avoid_clash k4) this) (avoid_clash k5)

theorem dest_head (pages : Map Int Int) (page : Int) (dest : Bytes) (h : ∀ c, dest.head? = some c → tokByte c = true) (v : Bytes)
    (hv : destination pages page dest = some v) : ∃ c t, v = c :: t ∧ tokByte c = true := by
  have hpar : ∀ s : Bytes, ∃ c t, b!"(" ++ s ++ b!")" = c :: t ∧ tokByte c = true := fun s => ⟨40, s ++ b!")", rfl, by decide⟩
  unfold destination at hv
  split at hv
  · cases hp : pages.get page with
    | none => rw [hp] at hv; simp at hv
    | some n =>
      rw [hp] at hv
      simp only [Option.map_some, Option.some.injEq] at hv
      subst hv
      unfold asValue
      split
      · exact ⟨91, itoa n ++ b!" 0 R /XYZ 0 792 null]", by simp, by decide⟩
      · exact hpar _
  · split at hv
    · simp at hv
    · simp only [Option.some.injEq] at hv
      subst hv
      unfold asValue
      split
      · cases dest with
        | nil => rename_i hne _; exact absurd rfl hne
        | cons c t => exact ⟨c, t, rfl, h c rfl⟩
      · exact hpar _

/-- What an item sy. -/
structure Says (t title : Bytes) (dest : Option Bytes) (act next first : Option Int) : Prop where
  title : xDictValue t b!"/Title" = firstWord (b!"((" ++ escapePDFString title ++ b!"))")
  dest : xDictValue t b!"/Dest" = (dest.map firstWord).getD []
  action : xDictValue t b!"/A" = ((act.map ref).map firstWord).getD []
  next : xDictValue t b!"/Next" = ((next.map ref).map firstWord).getD []
  first : xDictValue t b!"/First" = ((first.map ref).map firstWord).getD []

theorem says_item (n : Int) (title : Bytes) (dest : Option Bytes) (act parent prev next : Option Int) (kids : Option (Int × Int × Nat))
    (ht : (47 : UInt8) ∉ title) (hd : Safe dest) (hd2 : ∀ v, dest = some v → ∃ c t, v = c :: t ∧ tokByte c = true)
    (hact : ∀ a, act = some a → 0 < a) (hnext : ∀ a, next = some a → 0 < a) (hkids : ∀ k, kids = some k → 0 < k.1) :
    Says (objectText n (itemText title dest act parent prev next kids)) title dest act next (kids.map (·.1)) := by
  have sT : Safe (some (b!"((" ++ escapePDFString title ++ b!"))")) := by
    apply safe_noSlash
    have := escape_slash ht
    simp [this]
  have sC : Safe (kids.map fun k => natDec k.2.2) := by
    cases kids with
    | none => exact safe_none
    | some k => exact safe_noSlash (slash_not_natDec _)
  have sF : Safe (kids.map fun k => ref k.1) := by
    cases kids with
    | none => exact safe_none
    | some k => exact safe_ref _
  have sL : Safe (kids.map fun k => ref k.2.1) := by
    cases kids with
    | none => exact safe_none
    | some k => exact safe_ref _
  have hopt : ∀ o : Option Int, (∀ a, o = some a → 0 < a) → ∀ v, o.map ref = some v → ∃ c t, v = c :: t ∧ tokByte c = true := by
    intro o h v hv
    cases o with
    | none => simp at hv
    | some a => simp only [Option.map_some, Option.some.injEq] at hv; subst hv; exact ref_head (h a rfl)
  let eA : Bytes × Option Bytes := (b!"/A", act.map ref)
  let eC : Bytes × Option Bytes := (b!"/Count", kids.map fun k => natDec k.2.2)
  let eD : Bytes × Option Bytes := (b!"/Dest", dest)
  let eF : Bytes × Option Bytes := (b!"/First", kids.map fun k => ref k.1)
  let eL : Bytes × Option Bytes := (b!"/Last", kids.map fun k => ref k.2.1)
  let eP : Bytes × Option Bytes := (b!"/Parent", parent.map ref)
  let eV : Bytes × Option Bytes := (b!"/Prev", prev.map ref)
  let eT : Bytes × Option Bytes := (b!"/Title", some (b!"((" ++ escapePDFString title ++ b!"))"))
  let eN : Bytes × Option Bytes := (b!"/Next", next.map ref)
  have all : ∀ e ∈ [eA, eC, eD, eF, eL, eP, eV, eT, eN], e.1 ∈ allKeys ∧ Safe e.2 := by
    intro e he
    simp only [List.mem_cons, List.not_mem_nil, or_false] at he
    rcases he with rfl | rfl | rfl | rfl | rfl | rfl | rfl | rfl | rfl
    · exact ⟨by show b!"/A" ∈ allKeys; decide, safe_optRef _⟩
    · exact ⟨by show b!"/Count" ∈ allKeys; decide, sC⟩
    · exact ⟨by show b!"/Dest" ∈ allKeys; decide, hd⟩
    · exact ⟨by show b!"/First" ∈ allKeys; decide, sF⟩
    · exact ⟨by show b!"/Last" ∈ allKeys; decide, sL⟩
    · exact ⟨by show b!"/Parent" ∈ allKeys; decide, safe_optRef _⟩
    · exact ⟨by show b!"/Prev" ∈ allKeys; decide, safe_optRef _⟩
    · exact ⟨by show b!"/Title" ∈ allKeys; decide, sT⟩
    · exact ⟨by show b!"/Next" ∈ allKeys; decide, safe_optRef _⟩
  have look : ∀ (k : Bytes) (o : Option Bytes) (es1 es2 : List (Bytes × Option Bytes)), k ∈ readKeys →
      [eA, eC, eD, eF, eL, eP, eV, eT, eN] = es1 ++ (k, o) :: es2 → (∀ e ∈ es1 ++ es2, e.1 ≠ k) →
      (∀ v, o = some v → ∃ c t, v = c :: t ∧ tokByte c = true) →
      xDictValue (objectText n (itemText title dest act parent prev next kids)) k = (o.map firstWord).getD [] := by
    intro k o es1 es2 hk hes hne ho
    have e : itemText title dest act parent prev next kids = b!"<<" ++ (es1.flatMap fun e => entry e.1 e.2) ++ entry k o ++
        (es2.flatMap fun e => entry e.1 e.2) ++ b!">>" := by
      have : (es1.flatMap fun e => entry e.1 e.2) ++ (entry k o ++ es2.flatMap fun e => entry e.1 e.2) =
          [eA, eC, eD, eF, eL, eP, eV, eT, eN].flatMap fun e => entry e.1 e.2 := by
        rw [hes, List.flatMap_append, List.flatMap_cons]
      rw [List.append_assoc b!"<<", List.append_assoc b!"<<", List.append_assoc _ (entry k o), this]
      unfold itemText
      simp only [List.flatMap_cons, List.flatMap_nil, List.append_nil, eA, eC, eD, eF, eL, eP, eV, eT, eN]
      simp only [List.append_assoc]
    rw [e]
    apply lookup_entries hk n es1 es2 o _ ho
    intro x hx
    have hm : x ∈ [eA, eC, eD, eF, eL, eP, eV, eT, eN] := by
      rw [hes]
      simp only [List.mem_append, List.mem_cons] at hx ⊢
      rcases hx with h | h
      · exact .inl h
      · exact .inr (.inr h)
    exact ⟨(all x hm).1, hne x hx, (all x hm).2⟩
  have nek : ∀ (es : List (Bytes × Option Bytes)) (k : Bytes), (∀ x ∈ es.map Prod.fst, x ≠ k) → ∀ e ∈ es, e.1 ≠ k :=
    fun es k h e he => h _ (List.mem_map_of_mem he)
  constructor
  · have := look b!"/Title" (some (b!"((" ++ escapePDFString title ++ b!"))")) [eA, eC, eD, eF, eL, eP, eV] [eN] (by decide) rfl
      (nek _ _ (by simp [eA, eC, eD, eF, eL, eP, eV, eT, eN])) (by intro v hv; simp only [Option.some.injEq] at hv; subst hv; exact ⟨40, _, rfl, by decide⟩)
    rw [this]; rfl
  · exact look b!"/Dest" dest [eA, eC] [eF, eL, eP, eV, eT, eN] (by decide) rfl (nek _ _ (by simp [eA, eC, eD, eF, eL, eP, eV, eT, eN])) hd2
  · exact look b!"/A" (act.map ref) [] [eC, eD, eF, eL, eP, eV, eT, eN] (by decide) rfl (nek _ _ (by simp [eA, eC, eD, eF, eL, eP, eV, eT, eN])) (hopt _ hact)
  · exact look b!"/Next" (next.map ref) [eA, eC, eD, eF, eL, eP, eV, eT] [] (by decide) rfl (nek _ _ (by simp [eA, eC, eD, eF, eL, eP, eV, eT, eN])) (hopt _ hnext)
  · have := look b!"/First" (kids.map fun k => ref k.1) [eA, eC, eD] [eL, eP, eV, eT, eN] (by decide) rfl (nek _ _ (by simp [eA, eC, eD, eF, eL, eP, eV, eT, eN])) (by
      intro v hv
      cases kids with
      | none => simp at hv
      | some k => simp only [Option.map_some, Option.some.injEq] at hv; subst hv; exact ref_head (hkids k rfl))
    rw [this]
    cases kids <;> rfl

/-- What the action of a link sy, whatever the link is. -/
theorem says_action (n : Int) (uri : Bytes) : xDictValue (objectText n (actionText uri)) b!"/URI" = b!"/Type" := by
  have e : objectText n (actionText uri) = (itoa n ++ b!" 0 obj\n<</S ") ++ (entry b!"/URI" (some b!"/Type") ++
      (b!"/Action /URI ((" ++ escapePDFString uri ++ b!")) >>" ++ b!"\nendobj")) := by
    simp [objectText, actionText, entry]
  rw [e, xDict_found]
  · decide
  · exact avoid_append (avoid_head (slash_not_itoa _)) (avoid_clash (by decide))
  · exact ⟨47, _, rfl, by decide⟩

/-! ### The whole tree -/

/-- `get` returns the objects whose texts `obj` gives. -/
def Holds (get : Int → Option Bytes) (obj : Int → Option Bytes) : Prop := ∀ n t, obj n = some t → get n = some (objectText n t)

theorem head_num_mem {xs : List Node} {x : Node} (h : xs.head? = some x) : x.num ∈ numsOf xs := by
  cases xs with
  | nil => simp at h
  | cons y ys =>
    simp only [List.head?_cons, Option.some.injEq] at h
    subst h
    cases y with
    | mk n a k => simp [numsOf, Node.nums, Node.num]

theorem follow_word {get : Int → Option Bytes} {fuel : Nat} {n : Int} (h : 0 < n) {l : List Bookmark}
    (hr : readItems get fuel (natDec n.toNat) = some (some l)) :
    follow (readItems get fuel) ((((some n).map ref).map firstWord).getD []) = some l := by
  simp only [Option.map_some, Option.getD_some, firstWord_ref h]
  unfold follow
  rw [if_neg (natDec_ne_nil _), hr]
  rfl

mutual
theorem readItem_ok {get obj : Int → Option Bytes} (hg : Holds get obj) (pages : Map Int Int) (parent prev : Option Int) (fuel : Nat)
    (x : Node) (xs : List Node) (b : Bookmark) (bs : List Bookmark) (hf : sizeOf1 b + sizeAll bs ≤ fuel)
    (hpos : ∀ k ∈ numsOf (x :: xs), 0 < k ∧ k ≤ 9223372036854775807) (hp : Plain b)
    (hx : ItemAt obj pages parent prev (xs.head?.map Node.num) x b)
    (hrest : ∀ fuel, sizeAll bs ≤ fuel → ∀ y, xs.head? = some y → readItems get fuel (natDec y.num.toNat) = some (some (readBackAll pages bs)))
    (hlen : xs = [] → bs = []) :
    readItems get fuel (natDec x.num.toNat) = some (some (readBack pages b :: readBackAll pages bs)) := by
  match x, b with
  | .mk n act kids, .mk title page dest uri children =>
    unfold ItemAt at hx
    unfold Plain at hp
    obtain ⟨h1, h2, h3⟩ := hx
    obtain ⟨p1, p2, p3, p4⟩ := hp
    simp only [sizeOf1] at hf
    obtain ⟨fuel, rfl⟩ : ∃ f, fuel = f + 1 := ⟨fuel - 1, by omega⟩
    simp only [numsOf, Node.nums, List.mem_append, List.mem_cons] at hpos
    have hn := hpos n (.inl (.inr (.inl rfl)))
    have hkidnum : ∀ y, kids.head? = some y → 0 < y.num := fun y hy => (hpos _ (.inl (.inr (.inr (head_num_mem hy))))).1
    have hnextnum : ∀ y, xs.head? = some y → 0 < y.num := fun y hy => (hpos _ (.inr (head_num_mem hy))).1
    have sy := says_item n title (destination pages page dest) act parent prev (xs.head?.map Node.num) (kidsOf kids children) p1
      (safe_dest pages page dest p2) (dest_head pages page dest p3)
      (by intro a ha; subst ha; exact (hpos a (.inl (.inl (by simp)))).1)
      (by
        intro a ha
        cases hh : xs.head? with
        | none => rw [hh] at ha; simp at ha
        | some y => rw [hh] at ha; simp only [Option.map_some, Option.some.injEq] at ha; subst ha; exact hnextnum y hh)
      (by
        intro k hk
        unfold kidsOf at hk
        split at hk
        · rename_i f l hf _
          simp only [Option.some.injEq] at hk
          subst hk
          exact hkidnum f hf
        · simp at hk)
    have hkfirst : (kidsOf kids children).map (·.1) = kids.head?.map Node.num := by
      unfold kidsOf
      cases kids with
      | nil => rfl
      | cons y ys =>
        cases hl : (y :: ys).getLast? with
        | none => simp at hl
        | some l => simp
    rw [hkfirst] at sy
    have hget := hg n _ h1
    show readItems get (fuel + 1) (natDec n.toNat) = _
    rw [readItems, parse_word hn.1 hn.2]
    simp only
    rw [hget]
    simp only
    rw [sy.first, sy.next]
    have hkids : follow (readItems get fuel) (((kids.head?.map Node.num).map ref |>.map firstWord).getD []) = some (readBackAll pages children) := by
      cases hk : kids.head? with
      | none =>
        have : kids = [] := by simpa using hk
        subst this
        have : children = [] := by
          cases children with
          | nil => rfl
          | cons c cs => simp [ItemsAt] at h3
        subst this
        rfl
      | some y =>
        apply follow_word (hkidnum y hk)
        have := readItems_ok hg pages (some n) none fuel kids children (by omega)
          (fun k hk => hpos k (.inl (.inr (.inr hk)))) p4 h3
        exact this y hk
    have hnext : follow (readItems get fuel) (((xs.head?.map Node.num).map ref |>.map firstWord).getD []) = some (readBackAll pages bs) := by
      cases hk : xs.head? with
      | none =>
        have : xs = [] := by simpa using hk
        rw [hlen this]
        rfl
      | some y => exact follow_word (hnextnum y hk) (hrest fuel (by omega) y hk)
    rw [hkids, Option.bind_some, hnext, Option.map_some]
    rw [readBack]
    rw [sy.title, sy.dest]
    congr 4
    unfold readDest
    by_cases hd : ((destination pages page dest).map firstWord).getD [] = []
    · rw [if_pos hd]
      unfold readURI
      rw [sy.action]
      cases act with
      | none =>
        simp only at h2
        rw [if_neg (by rintro ⟨_, h⟩; exact h h2)]
        rfl
      | some a =>
        have ha := hpos a (.inl (.inl (by simp)))
        rw [if_pos ⟨hd, h2.1⟩]
        simp only [Option.map_some, Option.getD_some, firstWord_ref ha.1, parse_word ha.1 ha.2]
        rw [hg a _ h2.2]
        simp only
        rw [says_action]
        decide
    · rw [if_neg hd, if_neg (by rintro ⟨h, _⟩; exact hd h)]
theorem readItems_ok {get obj : Int → Option Bytes} (hg : Holds get obj) (pages : Map Int Int) (parent prev : Option Int) (fuel : Nat)
    (xs : List Node) (bs : List Bookmark) (hf : sizeAll bs ≤ fuel) (hpos : ∀ k ∈ numsOf xs, 0 < k ∧ k ≤ 9223372036854775807)
    (hp : PlainAll bs) (hx : ItemsAt obj pages parent prev xs bs) :
    ∀ y, xs.head? = some y → readItems get fuel (natDec y.num.toNat) = some (some (readBackAll pages bs)) := by
  intro y hy
  match xs, bs with
  | [], _ => simp at hy
  | _ :: _, [] => simp [ItemsAt] at hx
  | x :: xs, b :: bs =>
    rw [ItemsAt] at hx
    rw [PlainAll] at hp
    rw [sizeAll] at hf
    simp only [List.head?_cons, Option.some.injEq] at hy
    subst hy
    rw [readBackAll]
    refine readItem_ok hg pages parent prev fuel x xs b bs hf hpos hp.1 hx.1 ?_ ?_
    · intro fuel' hf' y hy
      exact readItems_ok hg pages parent (some x.num) fuel' xs bs hf' (fun k hk => hpos k (by simp [numsOf, hk])) hp.2 hx.2 y hy
    · intro he
      subst he
      cases bs with
      | nil => rfl
      | cons c cs => simp [ItemsAt] at hx
end

end Pdfer.Outline
