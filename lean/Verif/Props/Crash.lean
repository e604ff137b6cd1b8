import Verif.Spec.Crash
import Verif.Model.Fallback
import Verif.Proofs.Fill
import Verif.Props.Incremental

/-! C155: opening a file and reading an object never crash. -/

namespace Pdfer.Props

open Pdfer.Go Pdfer.Incremental Pdfer.Fallback Pdfer.XRefStream Pdfer.Spec Pdfer.Spec.Crash

theorem digits_iff (d : Bytes) : Digits d ↔ d ≠ [] ∧ ∀ c ∈ d, isDigit c = true := by
  have : ∀ c : UInt8, (48 ≤ c ∧ c ≤ 57) ↔ isDigit c = true := by apply forall_byte; decide +kernel
  unfold Digits
  constructor
  · exact fun h => ⟨h.1, fun c hc => (this c).1 (h.2 c hc)⟩
  · exact fun h => ⟨h.1, fun c hc => (this c).2 (h.2 c hc)⟩

theorem not_digit (c : UInt8) : ¬ (48 ≤ c ∧ c ≤ 57) ↔ isDigit c = false := by
  revert c; apply forall_byte; decide +kernel

theorem reNum_some {s d r : Bytes} (h : reNum s = some (d, r)) :
    s = d ++ r ∧ Digits d ∧ ∀ c, r.head? = some c → ¬ (48 ≤ c ∧ c ≤ 57) := by
  unfold reNum at h
  split at h
  · simp at h
  · rename_i h0
    simp only [Option.some.injEq, Prod.mk.injEq] at h
    obtain ⟨rfl, rfl⟩ := h
    refine ⟨(List.takeWhile_append_dropWhile).symm, (digits_iff _).2 ⟨h0, ?_⟩, ?_⟩
    · intro c hc
      have : ∀ (l : Bytes), c ∈ l.takeWhile isDigit → isDigit c = true := by
        intro l
        induction l with
        | nil => simp
        | cons e l ih =>
          intro hm
          by_cases he : isDigit e = true
          · rw [List.takeWhile_cons_of_pos he] at hm
            rcases List.mem_cons.1 hm with rfl | hm
            · exact he
            · exact ih hm
          · rw [List.takeWhile_cons_of_neg he] at hm; simp at hm
      exact this s hc
    · intro c hc
      rw [not_digit]
      have : ∀ (l : Bytes), (l.dropWhile isDigit).head? = some c → isDigit c = false := by
        intro l
        induction l with
        | nil => simp
        | cons e l ih =>
          intro hm
          by_cases he : isDigit e = true
          · rw [List.dropWhile_cons_of_pos he] at hm; exact ih hm
          · rw [List.dropWhile_cons_of_neg he] at hm; simp at hm; subst hm; simpa using he
      exact this s hc

theorem reNum_blank {d u r : Bytes} (hd : Digits d) (hu : Blank u) : reNum (d ++ (u ++ r)) = some (d, u ++ r) := by
  obtain ⟨c, u', rfl⟩ := List.exists_cons_of_ne_nil hu.1
  have hc : isDigit c = false := by
    have : ∀ c : UInt8, Spec.Manipulate.White c → isDigit c = false := by unfold Spec.Manipulate.White; apply forall_byte; decide +kernel
    exact this c (hu.2 c (by simp))
  have h1 := (digits_iff d).1 hd
  unfold reNum
  rw [List.takeWhile_append_of_pos h1.2, List.dropWhile_append_of_pos h1.2, List.cons_append,
    List.takeWhile_cons_of_neg (by simp [hc]), List.dropWhile_cons_of_neg (by simp [hc]), List.append_nil, if_neg h1.1]

theorem header_iff (s : Bytes) : HasHeader s ↔ searchWith reObj s ≠ none := by
  constructor
  · rintro ⟨a, d, u, v, b, rfl, hd, hu, hv⟩
    apply Manipulate.searchWith_isSome_of_drop a.length
    rw [List.drop_left]
    unfold reObj
    rw [reNum_blank hd hu, Option.bind_some]
    simp only
    rw [Manipulate.reSp1_white hu.1 (fun c hc => Manipulate.white_reSpace.1 (hu.2 c hc)) (by intro c hc; simp at hc; subst hc; decide), Option.bind_some,
      reLit_append, Option.bind_some,
      Manipulate.reSp1_white hv.1 (fun c hc => Manipulate.white_reSpace.1 (hv.2 c hc)) (by intro c hc; simp at hc; subst hc; decide), Option.bind_some,
      reLit_append]
    simp
  · intro h
    obtain ⟨x, hx⟩ := Option.ne_none_iff_exists'.1 h
    obtain ⟨a, t, rfl, h1, _⟩ := Forms.searchWith_some_at hx
    unfold reObj at h1
    simp only [Option.bind_eq_some_iff, Option.map_eq_some_iff] at h1
    obtain ⟨p, k1, s1, k2, s2, k3, s3, k4, s4, k5, _⟩ := h1
    obtain ⟨e1, hd, _⟩ := reNum_some (d := p.1) (r := p.2) k1
    obtain ⟨u, hu1, hu2, e2⟩ := Forms.reSp1_spec k2
    obtain ⟨v, hv1, hv2, e3⟩ := Forms.reSp1_spec k4
    refine ⟨a, p.1, u, v, s4, ?_, hd, ⟨hu1, hu2⟩, ⟨hv1, hv2⟩⟩
    rw [e1, e2, Manipulate.reLit_some k3, e3, Manipulate.reLit_some k5]

/-- A match in a part of the file: the number is complete, or the part ends within it. -/
theorem key_match {pdf x sub y key d : Bytes} {o : Nat} (hs : searchWith (reKeyNum key) sub = some d) (hsub : pdf = x ++ (sub ++ y))
    (ho : atoiMag 9223372036854775807 d = some o) : ∃ a w b, sub = a ++ (key ++ (w ++ (d ++ b))) ∧ Blank w ∧ Digits d ∧ digitsVal d = o ∧
      ∀ c, b.head? = some c → ¬ (48 ≤ c ∧ c ≤ 57) := by
  obtain ⟨a, t, e, h1, _⟩ := Forms.searchWith_some_at hs
  unfold reKeyNum at h1
  simp only [Option.bind_eq_some_iff, Option.map_eq_some_iff] at h1
  obtain ⟨s1, k1, s2, k2, p, k3, rfl⟩ := h1
  obtain ⟨w, hw1, hw2, e2⟩ := Forms.reSp1_spec k2
  obtain ⟨e3, hd, hb⟩ := reNum_some (d := p.1) (r := p.2) k3
  refine ⟨a, w, p.2, ?_, ⟨hw1, hw2⟩, hd, ?_, hb⟩
  · rw [e, Manipulate.reLit_some k1, e2, e3]
  · unfold atoiMag at ho
    split at ho
    · simp at ho
    · split at ho
      · split at ho
        · simpa using ho
        · simp at ho
      · simp at ho

theorem states_of {pdf x sub y key d : Bytes} {o : Nat} (hk : key ∈ [b!"startxref", b!"/Prev"]) (hs : searchWith (reKeyNum key) sub = some d)
    (hsub : pdf = x ++ (sub ++ y)) (ho : atoiMag 9223372036854775807 d = some o)
    (hy : (∀ c, y.head? = some c → ¬ (48 ≤ c ∧ c ≤ 57)) ∨ ∃ z c, sub = z ++ [c] ∧ ¬ (48 ≤ c ∧ c ≤ 57)) : States pdf o := by
  obtain ⟨a, w, b, e, hw, hd, hv, hb⟩ := key_match hs hsub ho
  refine ⟨key, hk, x ++ a, w, d, b ++ y, by rw [hsub, e]; simp only [List.append_assoc], hw, hd, hv, ?_⟩
  intro c hc
  cases b with
  | cons c' b => exact hb c (by simpa using hc)
  | nil =>
    rcases hy with hy | ⟨z, c', hz, hn⟩
    · exact hy c (by simpa using hc)
    · rw [List.append_nil] at e
      exfalso
      apply hn
      apply hd.2
      have hl : sub.getLast? = some c' := by rw [hz]; simp
      rw [e] at hl
      have : d.getLast? = some c' := by
        rw [← List.append_assoc, ← List.append_assoc, List.getLast?_append_of_ne_nil _ hd.1] at hl
        exact hl
      exact List.mem_of_getLast? this

theorem ofOption_ne {α : Type} (o : Option α) : Res.ofOption o ≠ .panic := by cases o <;> simp [Res.ofOption]

theorem bind_panic {α β : Type} {r : Res α} {f : α → Res β} (h : r.bind f = .panic) : r = .panic ∨ ∃ a, r = .ok a ∧ f a = .panic := by
  cases r with
  | ok a => exact .inr ⟨a, rfl, h⟩
  | err => simp [Res.bind] at h
  | panic => exact .inl rfl

theorem bindO_panic {α β : Type} {o : Option α} {f : α → Res β} (h : (Res.ofOption o).bind f = .panic) : ∃ a, o = some a ∧ f a = .panic := by
  rcases bind_panic h with h | ⟨a, h1, h2⟩
  · exact absurd h (ofOption_ne o)
  · cases o with
    | none => simp [Res.ofOption] at h1
    | some b => simp [Res.ofOption] at h1; subst h1; exact ⟨b, rfl, h2⟩

/-- The common beginning of the two readers of cross-reference streams. -/
theorem window_crash {α : Type} {pdf : Bytes} {o : Nat} (ho : o < pdf.length) {k : Bytes → Nat → Bytes → Res α} (hk : ∀ sec ds d, k sec ds d ≠ .panic)
    (h : ((sliceFrom pdf o).bind fun sec =>
      (match searchWith reObj (sec.take 500) with
        | some _ => Res.ok ()
        | none => (slice pdf (if o > 100 then o - 100 else 0) (o + 500)).bind fun s => Res.ofOption (searchWith reObj s)).bind fun _ =>
      (Res.ofOption (index b!"<<" sec)).bind fun ds => (sliceFrom (sec.take 500) ds).bind fun d => k sec ds d) = .panic) : Crash pdf o := by
  refine ⟨ho, ?_⟩
  have e : sliceFrom pdf o = .ok (pdf.drop o) := by unfold sliceFrom; rw [if_pos (by omega)]
  rw [e] at h
  simp only [Res.bind] at h
  rcases bind_panic h with h | ⟨_, _, h⟩
  · split at h
    · simp at h
    · rename_i hn
      left
      refine ⟨fun hh => (header_iff _).1 hh hn, ?_⟩
      rcases bind_panic h with h | ⟨_, _, h⟩
      · have hlo : (if o > 100 then o - 100 else 0) ≤ o := by split <;> omega
        generalize (if o > 100 then o - 100 else 0) = lo at h hlo
        unfold slice at h
        split at h
        · simp at h
        · omega
      · exact absurd h (ofOption_ne _)
  · obtain ⟨ds, h1, h⟩ := bindO_panic h
    right
    rcases bind_panic h with h | ⟨_, _, h⟩
    · obtain ⟨i1, i2, i3⟩ := index_eq_some_iff.1 h1
      unfold sliceFrom at h
      split at h
      · simp at h
      · rename_i hc
        rw [List.length_take] at hc
        refine ⟨o + ds, by omega, ?_, ?_⟩
        · rw [occursAt_iff (by decide), ← List.drop_drop]; exact i2
        · intro j hj1 hj2 hj
          rw [occursAt_iff (by decide)] at hj
          apply i3 (j - o) (by omega)
          rw [List.drop_drop, show o + (j - o) = j by omega]
          exact hj
    · exact absurd h (hk _ _ _)

theorem parseFull_crash {unz : Bytes → Option Bytes} {pdf : Bytes} {o : Nat} (ho : o < pdf.length) (h : parseFull unz pdf o = .panic) :
    Crash pdf o := by
  unfold parseFull at h
  refine window_crash (k := fun sec ds d => _) ho ?_ h
  intro sec ds d h
  obtain ⟨_, _, h⟩ := bindO_panic h
  obtain ⟨_, _, h⟩ := bindO_panic h
  obtain ⟨_, _, h⟩ := bindO_panic h
  obtain ⟨_, _, h⟩ := bindO_panic h
  obtain ⟨_, _, h⟩ := bindO_panic h
  split at h <;> simp at h

theorem old_crash {unz : Bytes → Option Bytes} {pdf : Bytes} {o : Nat} (ho : o < pdf.length) (h : oldXRefStream unz pdf o = .panic) :
    Crash pdf o := by
  unfold oldXRefStream at h
  refine window_crash (k := fun sec ds d => _) ho ?_ h
  intro sec ds d h
  obtain ⟨_, _, h⟩ := bindO_panic h
  obtain ⟨_, _, h⟩ := bindO_panic h
  obtain ⟨_, _, h⟩ := bindO_panic h
  obtain ⟨_, _, h⟩ := bindO_panic h
  obtain ⟨_, _, h⟩ := bindO_panic h
  simp only at h
  generalize oldEntries _ _ _ _ _ _ _ = m at h
  split at h
  · simp at h
  · split at h <;> simp at h

theorem section_crash {unz : Bytes → Option Bytes} {pdf : Bytes} {o : Nat} (h : parseXRefSection unz pdf o = .panic) :
    Crash pdf o ∧ ¬ OccursAt b!"xref" pdf o := by
  unfold parseXRefSection at h
  split at h
  · simp at h
  · rename_i ho
    simp only at h
    split at h
    · simp at h
    · rename_i hx
      refine ⟨?_, fun hc => hx ?_⟩
      · split at h
        · rcases bind_panic h with h | ⟨_, _, h⟩
          · exact parseFull_crash (by omega) h
          · simp at h
        · simp at h
      · rw [occursAt_iff (by decide)] at hc
        exact List.isPrefixOf_iff_prefix.2 hc

theorem sections_crash {unz : Bytes → Option Bytes} {pdf : Bytes} {offs : List Nat} (h : parseSections unz pdf offs = .panic) :
    ∃ o ∈ offs, parseXRefSection unz pdf o = .panic := by
  induction offs with
  | nil => simp [parseSections] at h
  | cons o os ih =>
    rw [parseSections] at h
    split at h
    · rename_i h1; exact ⟨o, by simp, h1⟩
    · obtain ⟨x, hx, h2⟩ := ih h; exact ⟨x, by simp [hx], h2⟩
    · rcases bind_panic h with h | ⟨_, _, h⟩
      · obtain ⟨x, hx, h2⟩ := ih h; exact ⟨x, by simp [hx], h2⟩
      · simp at h

theorem sections_panic {unz : Bytes → Option Bytes} {pdf : Bytes} {offs : List Nat} {o : Nat} (ho : o ∈ offs)
    (h : parseXRefSection unz pdf o = .panic) : parseSections unz pdf offs = .panic := by
  induction offs with
  | nil => simp at ho
  | cons x os ih =>
    rw [parseSections]
    rcases List.mem_cons.1 ho with rfl | ho
    · rw [h]
    · rw [ih ho]
      cases parseXRefSection unz pdf x <;> rfl

theorem start_states {pdf : Bytes} {o : Nat} (h : findLastStartXRef pdf = some o) : States pdf o := by
  unfold findLastStartXRef at h
  split at h
  · simp at h
  · rename_i e he
    split at h
    · simp at h
    · rename_i d hd
      have hocc := (mem_findAllEOF pdf e).1 (List.mem_of_getLast? he)
      refine states_of (x := (pdf.take e).take (e - 100)) (y := pdf.drop e) (by simp) hd ?_ h (.inl ?_)
      · rw [← List.append_assoc, List.take_append_drop, List.take_append_drop]
      · intro c hc
        obtain ⟨t, ht⟩ := hocc
        rw [← ht] at hc
        simp at hc
        subst hc
        decide

theorem scan_end : ∀ (depth : Nat) (s : Bytes), scanDict depth s ≤ s.length ∧
    (scanDict depth s = s.length ∨ ∃ z, s.take (scanDict depth s) = z ++ [62]) := by
  intro depth s
  induction depth, s using scanDict.induct with
  | case1 depth => simp [scanDict]
  | case2 depth c => simp [scanDict]
  | case3 depth c d r hc ih =>
    rw [scanDict, if_pos hc]
    refine ⟨by simp; omega, ?_⟩
    rcases ih.2 with h | ⟨z, h⟩
    · left; simp; omega
    · right
      refine ⟨c :: d :: z, ?_⟩
      rw [Nat.add_comm]
      simp [List.take_succ_cons, h]
  | case4 c d r hc he =>
    rw [scanDict, if_neg hc, if_pos he, if_pos rfl]
    refine ⟨by simp, .inr ⟨[c], ?_⟩⟩
    simp [he.2]
  | case5 depth c d r hc he hd ih =>
    rw [scanDict, if_neg hc, if_pos he, if_neg hd]
    refine ⟨by simp; omega, ?_⟩
    rcases ih.2 with h | ⟨z, h⟩
    · left; simp; omega
    · right
      refine ⟨c :: d :: z, ?_⟩
      rw [Nat.add_comm]
      simp [List.take_succ_cons, h]
  | case6 depth c d r hc he ih =>
    rw [scanDict, if_neg hc, if_neg he]
    refine ⟨by have := ih.1; simp at this ⊢; omega, ?_⟩
    rcases ih.2 with h | ⟨z, h⟩
    · left; simp at h ⊢; omega
    · right
      refine ⟨c :: z, ?_⟩
      rw [Nat.add_comm, List.take_succ_cons, h]
      rfl

/-- The trailer dictionary is a part of the text that reaches to its end or ends with `>`. -/
theorem trailerDict_part {s t : Bytes} (h : trailerDict s = some t) : ∃ x y, s = x ++ (t ++ y) ∧ (y = [] ∨ ∃ z, t = z ++ [62]) := by
  unfold trailerDict at h
  simp only [Option.bind_eq_some_iff, Option.map_eq_some_iff] at h
  obtain ⟨i, _, j, hj, rfl⟩ := h
  obtain ⟨_, h2, _⟩ := index_eq_some_iff.1 hj
  have hr : s = (s.take (i + 7) ++ (s.drop (i + 7)).take j) ++ (s.drop (i + 7)).drop j := by
    rw [List.append_assoc, List.take_append_drop, List.take_append_drop]
  generalize (s.drop (i + 7)).drop j = r at h2 hr
  obtain ⟨q, rfl⟩ := h2
  refine ⟨s.take (i + 7) ++ (s.drop (i + 7)).take j, (b!"<<" ++ q).drop (2 + scanDict 1 ((b!"<<" ++ q).drop 2)), ?_, ?_⟩
  · rw [List.take_append_drop]; exact hr
  · have e : (b!"<<" ++ q).drop 2 = q := rfl
    rw [e]
    rcases (scan_end 1 q).2 with h | ⟨z, h⟩
    · left
      rw [h]
      apply List.drop_of_length_le
      simp; omega
    · right
      refine ⟨b!"<<" ++ z, ?_⟩
      rw [Nat.add_comm]
      simp [List.take_succ_cons, h]

theorem prev_named {pdf : Bytes} {s o : Nat} (hs : Named pdf s) (h : findPrevOffset pdf s = some o) : Named pdf o := by
  unfold findPrevOffset at h
  split at h
  · simp at h
  · rename_i hlen
    simp only [Option.bind_eq_some_iff] at h
    obtain ⟨t, ht, d, hd, ho⟩ := h
    have split_at : pdf = pdf.take s ++ pdf.drop s := (List.take_append_drop s pdf).symm
    split at ht
    · obtain ⟨x, y, e, hy⟩ := trailerDict_part ht
      refine .states (states_of (x := pdf.take s ++ x) (y := y) (by simp) hd ?_ ho ?_)
      · rw [List.append_assoc, ← e]; exact split_at
      · rcases hy with rfl | ⟨z, e⟩
        · exact .inl (by simp)
        · exact .inr ⟨z, 62, e, by decide⟩
    · rename_i hx
      split at ht
      · rename_i k hk
        simp only [Option.some.injEq] at ht
        subst ht
        obtain ⟨_, ⟨t, ht⟩, _⟩ := index_eq_some_iff.1 hk
        refine .states (states_of (x := pdf.take s) (y := (pdf.drop s).drop k) (by simp) hd ?_ ho (.inl ?_))
        · rw [List.take_append_drop]; exact split_at
        · intro c hc
          rw [← ht] at hc
          simp at hc
          subst hc
          decide
      · simp only [Option.some.injEq] at ht
        subst ht
        obtain ⟨a, w, b, e, hw, hdd, hv, hb⟩ := key_match (x := pdf.take s) (y := (pdf.drop s).drop (min 2000 (pdf.drop s).length)) hd
          (by rw [List.take_append_drop]) ho
        by_cases hl : (pdf.drop s).length ≤ 2000
        · refine .states (states_of (x := pdf.take s) (y := []) (by simp) hd ?_ ho (.inl (by simp)))
          rw [List.append_nil, Nat.min_eq_right hl, List.take_length]; exact split_at
        · have hm : min 2000 (pdf.drop s).length = 2000 := by omega
          rw [hm] at e hd
          have hpdf : pdf = pdf.take s ++ ((pdf.drop s).take 2000 ++ (pdf.drop s).drop 2000) := by
            rw [List.take_append_drop]; exact split_at
          cases b with
          | cons c b =>
            refine .states ⟨b!"/Prev", by simp, pdf.take s ++ a, w, d, (c :: b) ++ (pdf.drop s).drop 2000, ?_, hw, hdd, hv, ?_⟩
            · rw [e] at hpdf
              simp only [List.append_assoc] at hpdf ⊢
              exact hpdf
            · intro c' hc'; exact hb c' (by simpa using hc')
          | nil =>
            refine .cut (a := pdf.take s ++ a) (w := w) (d := d) (b := (pdf.drop s).drop 2000) hs ?_ ?_ hw hdd hv ?_
            · intro hc
              apply hx
              rw [occursAt_iff (by decide)] at hc
              exact List.isPrefixOf_iff_prefix.2 hc
            · rw [e] at hpdf
              simp only [List.append_assoc, List.append_nil, List.nil_append] at hpdf ⊢
              exact hpdf
            · have h1 := congrArg List.length e
              have h2 : ((pdf.drop s).take 2000).length = 2000 := by rw [List.length_take]; omega
              rw [h2] at h1
              simp only [List.length_append, List.length_take, List.length_nil] at h1 ⊢
              omega

theorem chain_named {pdf : Bytes} : ∀ (fuel : Nat) (vis : List Nat) (cur : Nat) (acc r : List Nat), prevChain pdf fuel vis cur acc = some r →
    Named pdf cur → (∀ o ∈ acc, Named pdf o) → ∀ o ∈ r, Named pdf o := by
  intro fuel
  induction fuel with
  | zero => intro vis cur acc r h; simp [prevChain] at h
  | succ fuel ih =>
    intro vis cur acc r h hcur hacc
    rw [prevChain] at h
    split at h
    · split at h
      · simp only [Option.some.injEq] at h; subst h; exact hacc
      · rename_i prev hp
        split at h
        · refine ih _ _ _ _ h (prev_named hcur hp) ?_
          intro o ho
          rcases List.mem_cons.1 ho with rfl | ho
          · exact prev_named hcur hp
          · exact hacc o ho
        · simp only [Option.some.injEq] at h; subst h; exact hacc
    · simp only [Option.some.injEq] at h; subst h; exact hacc

theorem chain_keeps {pdf : Bytes} : ∀ (fuel : Nat) (vis : List Nat) (cur : Nat) (acc r : List Nat), prevChain pdf fuel vis cur acc = some r →
    ∀ o ∈ acc, o ∈ r := by
  intro fuel
  induction fuel with
  | zero => intro vis cur acc r h; simp [prevChain] at h
  | succ fuel ih =>
    intro vis cur acc r h o ho
    rw [prevChain] at h
    split at h
    · split at h
      · simp only [Option.some.injEq] at h; subst h; exact ho
      · split at h
        · exact ih _ _ _ _ h o (by simp [ho])
        · simp only [Option.some.injEq] at h; subst h; exact ho
    · simp only [Option.some.injEq] at h; subst h; exact ho

theorem read_crash {unz : Bytes → Option Bytes} {pdf : Bytes} (h : readSections unz pdf = .panic) :
    ∃ o, Named pdf o ∧ Crash pdf o ∧ ¬ OccursAt b!"xref" pdf o := by
  unfold readSections at h
  obtain ⟨s, hs, h⟩ := bindO_panic h
  obtain ⟨offs, hc, h⟩ := bindO_panic h
  rcases bind_panic h with h | ⟨_, _, h⟩
  · obtain ⟨o, ho, hp⟩ := sections_crash h
    obtain ⟨h1, h2⟩ := section_crash hp
    refine ⟨o, ?_, h1, h2⟩
    have h0 : Named pdf s := .states (start_states hs)
    refine chain_named _ _ _ _ _ hc h0 ?_ o ho
    intro x hx
    simp at hx
    subst hx
    exact h0
  · split at h <;> simp at h

theorem fallback_crash {unz : Bytes → Option Bytes} {pdf : Bytes} (h : fallback unz pdf = .panic) : ∃ o, Named pdf o ∧ Crash pdf o := by
  unfold fallback at h
  obtain ⟨t, ht, h⟩ := bindO_panic h
  split at h
  · rename_i hc
    unfold crossRefTable at hc
    split at hc
    · simp at hc
    · rename_i h0
      rw [not_or] at h0
      simp only at hc
      split at hc
      · refine ⟨t.start, ?_, old_crash (by omega) hc⟩
        unfold parsePDFTrailer at ht
        simp only [Option.bind_eq_some_iff, Option.map_eq_some_iff] at ht
        obtain ⟨_, _, _, _, rfl⟩ := ht
        simp only at h0 ⊢
        cases hs : searchWith (reKeyNum b!"startxref") pdf with
        | none => rw [hs] at h0; simp at h0
        | some d =>
          rw [hs] at h0
          simp only [Option.bind_some] at h0 ⊢
          cases hm : atoiMag 9223372036854775807 d with
          | none => rw [hm] at h0; simp at h0
          | some o => exact .states (states_of (x := []) (y := []) (by simp) hs (by simp) hm (.inl (by simp)))
      · exact absurd hc (ofOption_ne _)
  · simp at h
  · simp at h

/-- C155: `Open` does not crash on a file none of whose named offsets is a place where reading a cross-reference stream goes out of bounds –
for every file whatever else it holds, whatever decompression returns, and whether it is encrypted or not.

Partial: on the other files it may crash (`C155_crash_violated`). -/
theorem C155_open_partial (env : Incremental.Env) (hfall : env.fallback = fallback env.unz) (pdf : Bytes)
    (h : ∀ o, Named pdf o → ¬ Crash pdf o) : openPdf env pdf ≠ .panic := by
  intro hp
  unfold openPdf at hp
  split at hp
  · simp at hp
  · obtain ⟨c, _, hp⟩ := bindO_panic hp
    split at hp
    · simp at hp
    · rw [hfall] at hp
      obtain ⟨o, h1, h2⟩ := fallback_crash hp
      exact h o h1 h2
    · rename_i hr
      obtain ⟨o, h1, h2, _⟩ := read_crash hr
      exact h o h1 h2

/-- C155: `Open` does not crash on a file whose cross-reference sections are tables: the last `startxref` is found and names the place of a table,
and every other offset that the file states is that of a table or outside of the file. -/
theorem C155_tables (env : Incremental.Env) (pdf : Bytes) (start : Nat) (hs : findLastStartXRef pdf = some start) (hin : start < pdf.length)
    (h : ∀ o, States pdf o → o < pdf.length → OccursAt b!"xref" pdf o) : openPdf env pdf ≠ .panic := by
  have hall : ∀ o, Named pdf o → States pdf o := by
    intro o ho
    induction ho with
    | states h => exact h
    | @cut s o a w d b hn hx e _ _ _ hl ih =>
      exfalso
      apply hx
      apply h s ih
      have := congrArg List.length e
      simp only [List.length_append] at this hl
      omega
  intro hp
  unfold openPdf at hp
  split at hp
  · simp at hp
  · obtain ⟨c, _, hp⟩ := bindO_panic hp
    split at hp
    · simp at hp
    · rename_i hr
      obtain ⟨offs, hoffs⟩ := C26_walk_terminates pdf start
      have hc : chainOffsets pdf start = some offs := hoffs _ (Nat.le_refl _)
      have hmem : start ∈ offs := chain_keeps _ _ _ _ _ hc start (by simp)
      unfold readSections at hr
      rw [hs] at hr
      simp only [Res.ofOption, Res.bind, hc] at hr
      have key : ∀ os : List Nat, start ∈ os → ∀ ss, parseSections env.unz pdf os = .ok ss → ss ≠ [] := by
        intro os
        induction os with
        | nil => simp
        | cons o os ih =>
          intro hm ss he
          rw [parseSections] at he
          rcases List.mem_cons.1 hm with rfl | hm
          · have ht : (b!"xref").isPrefixOf (pdf.drop start) = true := by
              have := h start (start_states hs) hin
              rw [occursAt_iff (by decide)] at this
              exact List.isPrefixOf_iff_prefix.2 this
            have e : ∃ s, parseXRefSection env.unz pdf start = .ok s := by
              unfold parseXRefSection
              rw [if_neg (by omega), if_pos ht]
              exact ⟨_, rfl⟩
            obtain ⟨s, e⟩ := e
            rw [e] at he
            simp only at he
            cases hh : parseSections env.unz pdf os with
            | ok t => rw [hh] at he; simp only [Res.bind, Res.ok.injEq] at he; rw [← he]; simp
            | err => rw [hh] at he; simp [Res.bind] at he
            | panic => rw [hh] at he; simp [Res.bind] at he
          · split at he
            · simp at he
            · exact ih hm ss he
            · cases hh : parseSections env.unz pdf os with
              | ok t => rw [hh] at he; simp only [Res.bind, Res.ok.injEq] at he; rw [← he]; simp
              | err => rw [hh] at he; simp [Res.bind] at he
              | panic => rw [hh] at he; simp [Res.bind] at he
      have noerr : ∀ os : List Nat, parseSections env.unz pdf os ≠ .err := by
        intro os
        induction os with
        | nil => simp [parseSections]
        | cons o os ih =>
          rw [parseSections]
          split
          · simp
          · exact ih
          · cases hh : parseSections env.unz pdf os with
            | ok t => simp [Res.bind]
            | err => exact absurd hh ih
            | panic => simp [Res.bind]
      cases hh : parseSections env.unz pdf offs with
      | ok t =>
        rw [hh] at hr
        simp only at hr
        rw [if_neg (key offs hmem t hh)] at hr
        simp at hr
      | err => exact noerr _ hh
      | panic => rw [hh] at hr; simp at hr
    · rename_i hr
      obtain ⟨o, h1, h2, h3⟩ := read_crash hr
      exact h3 (h o (hall o h1) h2.1)

/-- C155 is violated: every file whose last `startxref` points, not at the table, but at bytes with `obj` among the first hundred, less than 500 bytes
before the end and with no object header after it, makes `Open` crash. -/
theorem C155_crash_violated (env : Incremental.Env) (c : Option Decrypt) (pdf : Bytes) (hc : env.handleEncryption pdf = some c) (start : Nat)
    (hs : findLastStartXRef pdf = some start) (h8 : 8 ≤ pdf.length) (hin : start < pdf.length) (hend : pdf.length < start + 500)
    (hx : ¬ OccursAt b!"xref" pdf start) (hobj : ∃ i, i + 3 ≤ 100 ∧ OccursAt b!"obj" pdf (start + i))
    (hno : ¬ HasHeader (pdf.drop start)) : openPdf env pdf = .panic := by
  have hsec : parseXRefSection env.unz pdf start = .panic := by
    unfold parseXRefSection
    rw [if_neg (by omega), if_neg (by intro hc; apply hx; rw [occursAt_iff (by decide)]; exact List.isPrefixOf_iff_prefix.1 hc)]
    have hcon : contains ((pdf.drop start).take 100) b!"obj" = true := by
      obtain ⟨i, hi, a, b, e, hl⟩ := hobj
      rw [Manipulate.contains_iff]
      refine ⟨a.drop start, b.take (100 - i - 3), ?_⟩
      have e1 : pdf.drop start = a.drop start ++ (b!"obj" ++ b) := by rw [e, List.append_assoc, List.drop_append_of_le_length (by omega)]
      have e2 : (a.drop start).length = i := by rw [List.length_drop]; omega
      rw [e1, List.append_assoc]
      generalize a.drop start = c at e2
      have e3 : 100 = (c ++ b!"obj").length + (100 - i - 3) := by simp; omega
      rw [← List.append_assoc c, ← List.append_assoc c]
      conv => rhs; rw [e3, List.take_length_add_append]
    simp only [hcon, Bool.or_true, if_true]
    have hp : parseFull env.unz pdf start = .panic := by
      unfold parseFull
      have e : sliceFrom pdf start = .ok (pdf.drop start) := by unfold sliceFrom; rw [if_pos (by omega)]
      rw [e]
      simp only [Res.bind]
      have hn : searchWith reObj ((pdf.drop start).take 500) = none := by
        rw [List.take_of_length_le (by rw [List.length_drop]; omega)]
        apply Classical.byContradiction
        intro hh
        exact hno ((header_iff _).2 hh)
      rw [hn]
      have es : slice pdf (if start > 100 then start - 100 else 0) (start + 500) = .panic := by
        unfold slice
        rw [if_neg (by omega)]
      simp only [es]
    rw [hp]
    rfl
  unfold openPdf
  rw [if_neg (by omega), hc]
  simp only [Res.ofOption, Res.bind]
  have hr : readSections env.unz pdf = .panic := by
    obtain ⟨offs, hoffs⟩ := C26_walk_terminates pdf start
    have hch : chainOffsets pdf start = some offs := hoffs _ (Nat.le_refl _)
    unfold readSections
    rw [hs]
    simp only [Res.ofOption, Res.bind, hch]
    rw [sections_panic (chain_keeps _ _ _ _ _ hch start (by simp)) hsec]
  rw [hr]

/-- C155: reading an object that is not in an object stream does not crash, encrypted or not, if something – three bytes at least – follows each
`endobj` of the file.  Partial: for objects in object streams see C17 (`C17_first_too_large_violated`); a file that ends right after `endobj` can
crash. -/
theorem C155_get_partial (env : Incremental.Env) (p : Pdf) (n : Int) (hdirect : ∀ stm idx, p.refs.get n ≠ some (.inStream stm idx))
    (h : ∀ i, OccursAt b!"endobj" p.raw i → i + 9 ≤ p.raw.length) : Incremental.getObject env p n ≠ .panic := by
  intro hp
  unfold Incremental.getObject at hp
  cases hr : p.refs.get n with
  | none => rw [hr] at hp; simp at hp
  | some r => cases r with
    | inStream stm idx => exact hdirect _ _ hr
    | direct off =>
      rw [hr] at hp
      simp only at hp
      unfold getDirectObject at hp
      split at hp
      · simp at hp
      · have hloc : ∃ k g, locate p.raw n off.toNat = (p.raw.drop k, g) := by
          unfold locate
          simp only
          split
          · exact ⟨_, _, rfl⟩
          · split <;> exact ⟨_, _, rfl⟩
        obtain ⟨k, g, hl⟩ := hloc
        rcases bind_panic hp with hp | ⟨_, _, hp⟩
        · rw [hl] at hp
          simp only at hp
          unfold objContent at hp
          obtain ⟨e, he, hp⟩ := bindO_panic hp
          obtain ⟨e1, e2, _⟩ := index_eq_some_iff.1 he
          have hpos : k + e + 9 ≤ p.raw.length := by
            apply h
            rw [occursAt_iff (by decide), ← List.drop_drop]
            exact e2
          have hcl : ∀ b : Bytes, b = (p.raw.drop k).take e → (match index b!"obj" b with
              | none => b
              | some k => (b.drop (k + 3)).dropWhile objWs).length ≤ e := by
            intro b hb
            have hbl : b.length ≤ e := by rw [hb, List.length_take]; omega
            split
            · exact hbl
            · refine Nat.le_trans (List.dropWhile_sublist _).length_le ?_
              rw [List.length_drop]; omega
          have key : ∀ content : Bytes, content.length ≤ e → (match index b!"stream" content with
              | none =>
                match p.crypt with
                | none => Res.ok content
                | some d => .ok ((d n g content).getD content)
              | some streamStart =>
                (sliceTo ((p.raw.drop k).drop (e - content.length)) (((index b!"endstream" content).getD content.length) + 9)).bind fun content' =>
                match p.crypt with
                | none => .ok content'
                | some d => .ok (decryptStream d n g content' streamStart)) ≠ .panic := by
            intro content hlen hp
            split at hp
            · split at hp <;> simp at hp
            · rcases bind_panic hp with hp | ⟨_, _, hp⟩
              · unfold sliceTo at hp
                split at hp
                · simp at hp
                · rename_i hc
                  apply hc
                  rw [List.length_drop, List.length_drop]
                  have hle : ((index b!"endstream" content).getD content.length) ≤ content.length := by
                    cases hi : index b!"endstream" content with
                    | none => simp
                    | some j => exact (index_eq_some_iff.1 hi).1
                  omega
              · split at hp <;> simp at hp
          exact key _ (hcl _ rfl) hp
        · simp at hp

/-- C155 is violated for objects too: a stream without `endstream`, if its `endobj` is the end of the file. -/
theorem C155_get_violated (env : Incremental.Env) : Incremental.getObject env
    { raw := b!"1 0 obj\n<</Length 0>>\nstream\nendobj", crypt := none, refs := [(1, .direct 0)], root := [], info := [], encrypt := [], size := 0 } 1 =
      .panic := by
  show getDirectObject none b!"1 0 obj\n<</Length 0>>\nstream\nendobj" 1 0 = .panic
  decide +kernel

/-! ### Cases -/

/-- What the file states is found at one of its positions. -/
theorem states_scan {pdf : Bytes} {o : Nat} (h : States pdf o) :
    ∃ i < pdf.length, ∃ key ∈ [b!"startxref", b!"/Prev"], ∃ d, reKeyNum key (pdf.drop i) = some d ∧ digitsVal d = o := by
  obtain ⟨key, hk, a, w, d, b, rfl, hw, hd, hv, hb⟩ := h
  refine ⟨a.length, ?_, key, hk, d, ?_, hv⟩
  · have : key ≠ [] := by rintro rfl; revert hk; decide
    have := List.length_pos_iff.2 this
    simp only [List.length_append]; omega
  · obtain ⟨c, d', rfl⟩ := List.exists_cons_of_ne_nil hd.1
    rw [List.drop_left]
    unfold reKeyNum
    have hdig : ∀ c : UInt8, (48 ≤ c ∧ c ≤ 57) → reSpace c = false := by apply forall_byte; decide +kernel
    rw [reLit_append, Option.bind_some,
      Manipulate.reSp1_white hw.1 (fun c hc => Manipulate.white_reSpace.1 (hw.2 c hc)) (by
        intro c' hc; simp at hc; subst hc; exact hdig c (hd.2 c (by simp))), Option.bind_some]
    have h1 := (digits_iff _).1 hd
    have e1 : b.takeWhile isDigit = [] := by
      cases b with
      | nil => rfl
      | cons c b => rw [List.takeWhile_cons_of_neg (by rw [(not_digit c).1 (hb c rfl)]; simp)]
    unfold reNum
    rw [List.takeWhile_append_of_pos h1.2, e1, List.append_nil, if_neg h1.1]
    rfl

/-- The base file followed by two updates: three tables, linked. -/
theorem exFile_tables : ∀ o, States exFile o → o < exFile.length → OccursAt b!"xref" exFile o := by
  intro o h _
  obtain ⟨i, hi, key, hk, d, h1, rfl⟩ := states_scan h
  have hscan : ∀ i, i < exFile.length → ∀ key ∈ [b!"startxref", b!"/Prev"],
      ((reKeyNum key (exFile.drop i)).all fun d => [120, 305, 441].contains (digitsVal d)) = true := by decide +kernel
  have := hscan i hi key hk
  rw [h1] at this
  simp at this
  rw [occursAt_iff (by decide), ← List.isPrefixOf_iff_prefix]
  rcases this with h | h | h <;> rw [h] <;> decide +kernel

/-- The hypotheses of `C155_tables` hold of a file with three sections, and so do those of `C155_open_partial`. -/
example (env : Incremental.Env) : openPdf env exFile ≠ .panic :=
  C155_tables env exFile 441 (by decide +kernel) (by decide +kernel) exFile_tables

/-- The same file; `Open` is not only free of a crash, it succeeds. -/
example : (openPdf readEnv exFile).bind (fun p => .ok p.size) = .ok 8 := by decide +kernel

/-- The base file with a `startxref` that is 7 too small: it points at `endobj`, the last bytes before the table. -/
def exCrashFile : Bytes := (written plainEnv exOps).bytes.take 253 ++ b!"113\n%%EOF\n"

/-- `Open` crashes on it. -/
example : openPdf readEnv exCrashFile = .panic :=
  C155_crash_violated readEnv none exCrashFile rfl 113 (by decide +kernel) (by decide +kernel) (by decide +kernel) (by decide +kernel)
    (by rw [occursAt_iff (by decide), ← List.isPrefixOf_iff_prefix]; decide +kernel)
    ⟨3, by decide, by rw [occursAt_iff (by decide), ← List.isPrefixOf_iff_prefix]; decide +kernel⟩
    (by rw [header_iff]; decide +kernel)

/-- The file with an object stored encrypted or not: every `endobj` is followed by more. -/
example (n : Int) (d : Option Decrypt) : Incremental.getObject readEnv
    { raw := exFile, crypt := d, refs := [(1, .direct 15), (3, .direct 69), (9, .direct 530)], root := [], info := [], encrypt := [], size := 0 } n ≠ .panic := by
  apply C155_get_partial
  · intro stm idx h
    simp only [Map.get, Option.map_eq_some_iff] at h
    obtain ⟨e, he, h⟩ := h
    have := List.mem_of_find?_eq_some he
    simp at this
    rcases this with rfl | rfl | rfl <;> simp at h
  · intro i hi
    obtain ⟨a, b, e, hl⟩ := hi
    have hlen : i < exFile.length := by
      have := congrArg List.length e; simp only [List.length_append, List.length_cons] at this; omega
    have hscan : ∀ i, i < exFile.length → (b!"endobj").isPrefixOf (exFile.drop i) = true → i + 9 ≤ exFile.length := by decide +kernel
    apply hscan i hlen
    rw [List.isPrefixOf_iff_prefix, ← occursAt_iff (by decide)]
    exact ⟨a, b, e, hl⟩

end Pdfer.Props
