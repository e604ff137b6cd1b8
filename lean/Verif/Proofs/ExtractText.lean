import Verif.Spec.Extract
import Verif.Proofs.ContentPage
import Verif.Proofs.BuilderText
import Verif.Proofs.OutlineRead

/-! Reading pages: the texts of built pages, fonts and content streams. -/

namespace Pdfer.Extract

open Pdfer.Go Pdfer.Enc Pdfer.Content Pdfer.Manipulate Pdfer.Spec.Content Pdfer.Spec.Extract Pdfer.Crypto

variable {F : Type}

/-! ### Plain text in a standard font -/

/-- The decoder of a standard font. -/
def stdDec : Decoder := setBase .new b!"StandardEncoding"

theorem std_byte (b : UInt8) (h : PlainByte b) : writeRuneI (byteChar stdDec b.toNat) = [b] := by
  have : ∀ b : UInt8, (b < 128 && b != 39 && b != 96) = true → writeRuneI (byteChar stdDec b.toNat) = [b] := by
    intro b
    exact forall_byte (p := fun b => (b < 128 && b != 39 && b != 96) = true → writeRuneI (byteChar stdDec b.toNat) = [b]) (by decide +kernel) b
  apply this
  simp only [Bool.and_eq_true, bne_iff_ne, decide_eq_true_eq]
  exact ⟨⟨h.1, h.2.1⟩, h.2.2⟩

theorem ascii_byte (b : UInt8) (h : PlainByte b) : writeRuneI b.toNat = [b] := by
  have : ∀ b : UInt8, (b < 128) = true → writeRuneI b.toNat = [b] := by
    intro b
    exact forall_byte (p := fun b => (b < 128) = true → writeRuneI b.toNat = [b]) (by decide +kernel) b
  exact this b (by simpa using h.1)

theorem flatMap_same {f : UInt8 → Bytes} {s : Bytes} (h : ∀ c ∈ s, f c = [c]) : s.flatMap f = s := by
  induction s with
  | nil => rfl
  | cons c s ih => rw [List.flatMap_cons, h c (by simp), ih fun d hd => h d (by simp [hd])]; rfl

theorem decode_std {s : Bytes} (h : ∀ c ∈ s, PlainByte c) : decode stdDec s = s :=
  flatMap_same fun c hc => std_byte c (h c hc)

theorem pairUp_hex : ∀ (t data : Bytes), Spec.Enc.pairUp t = some data → ∀ c ∈ t, Enc.isHex c = true := by
  intro t
  fun_induction Spec.Enc.pairUp t with
  | case1 => intro data _ c hc; simp at hc
  | case2 a =>
    intro data h c hc
    simp only [List.mem_singleton] at hc
    subst hc
    rw [hexDigit_eq] at h
    unfold Enc.isHex
    cases hx : hexDig c with
    | none => rw [hx] at h; simp at h
    | some x => rfl
  | case3 a b r ih =>
    intro data h c hc
    rw [hexDigit_eq, hexDigit_eq] at h
    cases hx : hexDig a with
    | none => rw [hx] at h; simp at h
    | some x =>
      cases hy : hexDig b with
      | none => rw [hx, hy] at h; simp at h
      | some y =>
        cases hr : Spec.Enc.pairUp r with
        | none => rw [hx, hy, hr] at h; simp at h
        | some t =>
          rcases List.mem_cons.1 hc with rfl | hc
          · simp [Enc.isHex, hx]
          · rcases List.mem_cons.1 hc with rfl | hc
            · simp [Enc.isHex, hy]
            · exact ih t hr c hc

theorem hex_not_angle : ∀ c : UInt8, Enc.isHex c = true → c ≠ 60 ∧ c ≠ 62 := by
  intro c
  exact forall_byte (p := fun c => Enc.isHex c = true → c ≠ 60 ∧ c ≠ 62) (by decide +kernel) c

theorem decodeHex_std {h data : Bytes} (hd : Spec.Enc.hexBytes h = some data) (hw : ∀ c ∈ h, Spec.Enc.white c = true → c = 32)
    (hp : ∀ c ∈ data, PlainByte c) : decodeHex stdDec h = data := by
  have hang : ∀ c ∈ h, c ≠ 60 ∧ c ≠ 62 := by
    intro c hc
    by_cases hwc : Spec.Enc.white c = true
    · rw [hw c hc hwc]; decide
    · apply hex_not_angle
      apply pairUp_hex _ _ hd
      rw [List.mem_filter]
      exact ⟨hc, by simpa using hwc⟩
  have e1 : (b!"<").isPrefixOf h = false := by
    cases h with
    | nil => rfl
    | cons c h => have := (hang c (by simp)).1; simp [List.isPrefixOf]; exact fun e => this e.symm
  have e2 : (b!">").isSuffixOf h = false := by
    cases hx : (b!">").isSuffixOf h with
    | false => rfl
    | true =>
      rw [List.isSuffixOf_iff_suffix] at hx
      exact absurd rfl (hang 62 (hx.subset (by simp))).2
  have e4 : h.filter (fun c => decide (c ≠ 32 ∧ c ≠ 10 ∧ c ≠ 13)) = h.filter fun c => !Spec.Enc.white c := by
    apply List.filter_congr
    intro c hc
    by_cases hwc : Spec.Enc.white c = true
    · rw [hw c hc hwc]; decide
    · have : Spec.Enc.white c = false := by simpa using hwc
      rw [this]
      simp only [Spec.Enc.white, Bool.or_eq_false_iff, beq_eq_false_iff_ne] at this
      simp only [Bool.not_false, decide_eq_true_eq]
      exact ⟨this.2, this.1.1.1.2, this.1.2⟩
  have e5 : hexClean h = if (h.filter fun c => !Spec.Enc.white c).length % 2 ≠ 0 then (h.filter fun c => !Spec.Enc.white c) ++ b!"0"
      else h.filter fun c => !Spec.Enc.white c := by
    unfold hexClean
    simp only [e1, Bool.false_eq_true, if_false]
    simp only [e2, Bool.false_eq_true, if_false]
    simp only [e4]
  have h2 : has2Byte stdDec = false := by decide +kernel
  unfold decodeHex
  simp only [h2, Bool.false_and, Bool.false_eq_true, if_false]
  rw [chunks2_decode stdDec _ data ?_ (by rw [e5, pairUp_pad]; exact hd)]
  · apply flatMap_same
    intro c hc
    rw [lookup_byte]
    exact std_byte c (hp c hc)
  · rw [e5]
    split
    · rw [List.length_append]; simp only [List.length_singleton]; omega
    · omega

/-- Every font known is a standard one. -/
def AllStd (fonts : Option (Map Bytes Decoder)) : Prop := ∀ m, fonts = some m → ∀ k d, m.get k = some d → d = stdDec

theorem fontOf_std {fonts : Option (Map Bytes Decoder)} (h : AllStd fonts) (p : Spec.Content.Page F) :
    fontOf fonts p = none ∨ fontOf fonts p = some stdDec := by
  unfold fontOf
  split
  · exact .inl rfl
  · cases fonts with
    | none => exact .inl rfl
    | some m =>
      cases hg : m.get p.gs.text.font with
      | none => exact .inl hg
      | some d => right; rw [← h m rfl _ d hg]; exact hg

theorem readLit_std {fonts : Option (Map Bytes Decoder)} (h : AllStd fonts) (p : Spec.Content.Page F) {s : Bytes} (hs : ∀ c ∈ s, PlainByte c) :
    readLit fonts p s = readLit none p s := by
  have e0 : fontOf none p = none := by unfold fontOf; split <;> rfl
  unfold readLit
  rw [e0]
  rcases fontOf_std h p with e | e <;> rw [e]
  exact decode_std hs

theorem exec_std {A : Arith F} {fonts : Option (Map Bytes Decoder)} (h : AllStd fonts) (p : Spec.Content.Page F) (c : Call F) (hc : CallOK c)
    (hp : PlainTexts c) : exec A fonts p c = exec A none p c := by
  cases c
  case showText s => simp only [exec, readLit_std h p hp]
  case showTextNextLine s => simp only [exec, readLit_std h p hp]
  case showTextArray ps =>
    simp only [exec]
    congr 1
    have key : ∀ qs : List (Piece F), (∀ q ∈ qs, q ∈ ps) → qs.flatMap (pieceText fonts p) = qs.flatMap (pieceText none p) := by
      intro qs
      induction qs with
      | nil => intro _; rfl
      | cons q qs ih =>
        intro hq
        rw [List.flatMap_cons, List.flatMap_cons, ih fun r hr => hq r (by simp [hr])]
        congr 1
        cases q with
        | text s => exact readLit_std h p (hp s (hq _ (by simp)))
        | int n => rfl
        | float x => rfl
    exact key ps fun q hq => hq
  case showTextHex x =>
    have e0 : fontOf none p = none := by unfold fontOf; split <;> rfl
    obtain ⟨data, hx⟩ := Option.isSome_iff_exists.1 hc.1
    have hp' : ∀ c ∈ data, PlainByte c := by
      intro c hcc
      apply hp
      rw [hx]
      exact hcc
    simp only [exec]
    congr 1
    unfold readHex
    rw [e0]
    rcases fontOf_std h p with e | e <;> rw [e]
    simp only [hx, Option.getD_some]
    rw [decodeHex_std hx hc.2 hp', ← flatMap_write, List.flatMap_map]
    exact (flatMap_same fun c hcc => ascii_byte c (hp' c hcc)).symm
  all_goals rfl

theorem foldl_std {A : Arith F} {fonts : Option (Map Bytes Decoder)} (h : AllStd fonts) (cs : List (Call F)) (hc : ∀ c ∈ cs, CallOK c)
    (hp : ∀ c ∈ cs, PlainTexts c) (p : Spec.Content.Page F) : cs.foldl (exec A fonts) p = cs.foldl (exec A none) p := by
  induction cs generalizing p with
  | nil => rfl
  | cons c cs ih =>
    rw [List.foldl_cons, List.foldl_cons, exec_std h p c (hc c (by simp)) (hp c (by simp))]
    exact ih (fun d hd => hc d (by simp [hd])) (fun d hd => hp d (by simp [hd])) _

theorem pageOf_std {A : Arith F} {fonts : Option (Map Bytes Decoder)} (h : AllStd fonts) (cs : List (Call F)) (hc : ∀ c ∈ cs, CallOK c)
    (hp : ∀ c ∈ cs, PlainTexts c) : pageOf A fonts cs = pageOf A none cs := foldl_std h cs hc hp _

theorem always_std {A : Arith F} {fonts : Option (Map Bytes Decoder)} (h : AllStd fonts)
    {P : Spec.Content.Page F → Call F → List (Call F) → Prop} (cs : List (Call F)) (hc : ∀ c ∈ cs, CallOK c)
    (hp : ∀ c ∈ cs, PlainTexts c) (p : Spec.Content.Page F) (ha : Always A none P p cs) : Always A fonts P p cs := by
  induction cs generalizing p with
  | nil => trivial
  | cons c cs ih =>
    refine ⟨ha.1, ?_⟩
    rw [exec_std h p c (hc c (by simp)) (hp c (by simp))]
    exact ih (fun d hd => hc d (by simp [hd])) (fun d hd => hp d (by simp [hd])) _ ha.2

/-! ### From page numbers to pages -/

theorem kids_pages {go : Int → Option (Option (List Int))} {go' : Int → Option (Res (List (XPage F)))} {P : Int → XPage F} {all : List Int}
    (h : ∀ k l, go k = some l → (∀ n ∈ l.getD [], n ∈ all) →
      go' k = some (match l with | none => .err | some ns => .ok (ns.map P))) :
    ∀ (rs : List Bytes) (ns : List Int), kidsLoop go rs = some ns → (∀ n ∈ ns, n ∈ all) → kidPages go' rs = some (.ok (ns.map P)) := by
  intro rs
  induction rs with
  | nil =>
    intro ns hk _
    simp only [kidsLoop, Option.some.injEq] at hk
    subst hk
    rfl
  | cons r rs ih =>
    intro ns hk hall
    rw [kidsLoop] at hk
    rw [kidPages]
    cases hr : parseObjectRef r with
    | none => rw [hr] at hk; exact ih ns hk hall
    | some k =>
      rw [hr] at hk
      simp only at hk ⊢
      cases hg : go k with
      | none => rw [hg] at hk; simp at hk
      | some l =>
        rw [hg, Option.bind_some] at hk
        cases hl : kidsLoop go rs with
        | none => rw [hl] at hk; simp at hk
        | some ls =>
          rw [hl] at hk
          simp only [Option.map_some, Option.some.injEq] at hk
          subst hk
          have h1 := h k l hg (fun n hn => hall n (by simp [hn]))
          have h2 := ih ls hl (fun n hn => hall n (by simp [hn]))
          rw [h1, Option.bind_some]
          cases l with
          | none => simpa using h2
          | some ms => simp only [h2, Option.map_some, Res.bind, Option.getD_some, List.map_append]

theorem tree_pages (fl : XFloats F) (get : Int → Option Bytes) (unz : Bytes → Option Bytes) (P : Int → XPage F) (all : List Int)
    (hP : ∀ n ∈ all, ∀ s, get n = some s → page fl get unz n s = .ok (P n)) :
    ∀ (fuel : Nat) (k : Int) (l : Option (List Int)), xPageNums get fuel k = some l → (∀ n ∈ l.getD [], n ∈ all) →
      treePages fl get unz fuel k = some (match l with | none => .err | some ns => .ok (ns.map P)) := by
  intro fuel
  induction fuel with
  | zero => intro k l h; simp [xPageNums] at h
  | succ fuel ih =>
    intro k l h hall
    rw [xPageNums] at h
    rw [treePages]
    cases hg : get k with
    | none => rw [hg] at h; simp only [Option.some.injEq] at h; subst h; rfl
    | some s =>
      rw [hg] at h
      simp only at h ⊢
      by_cases hx : xIsPage s = true
      · rw [if_pos hx] at h ⊢
        simp only [Option.some.injEq] at h
        subst h
        rw [hP k (hall k (by simp)) s hg]
        rfl
      · rw [if_neg hx] at h ⊢
        by_cases hk : xDictValue s b!"/Kids" = []
        · rw [if_pos hk] at h ⊢
          simp only [Option.some.injEq] at h
          subst h
          rfl
        · rw [if_neg hk] at h ⊢
          cases hl : kidsLoop (xPageNums get fuel) (parseObjectRefArray
              (if (b!"[").isPrefixOf (xDictValue s b!"/Kids") = true then xDictValue s b!"/Kids" else b!"[" ++ xDictValue s b!"/Kids" ++ b!"]")) with
          | none => rw [hl] at h; simp at h
          | some ns =>
            rw [hl] at h
            simp only [Option.map_some, Option.some.injEq] at h
            subst h
            exact kids_pages ih _ ns hl hall

theorem extract_pages (fl : XFloats F) (get : Int → Option Bytes) (unz : Bytes → Option Bytes) (P : Int → XPage F) (root : Bytes) (fuel : Nat)
    (nums : List Int) (h : xAllPages get root fuel = some (some nums))
    (hP : ∀ n ∈ nums, ∀ s, get n = some s → page fl get unz n s = .ok (P n)) :
    extractPages fl get unz root fuel = some (.ok (nums.map P)) := by
  unfold xAllPages at h
  unfold extractPages
  cases hc : (parseObjectRef root).bind get with
  | none => rw [hc] at h; simp at h
  | some cat =>
    rw [hc] at h
    simp only at h ⊢
    cases hp : parseObjectRef (xDictValue cat b!"/Pages") with
    | none => rw [hp] at h; simp at h
    | some p =>
      rw [hp] at h
      exact tree_pages fl get unz P nums hP fuel p (some nums) h (fun n hn => hn)

end Pdfer.Extract
