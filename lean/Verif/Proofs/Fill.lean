import Verif.Proofs.FieldText
import Verif.Proofs.Rebuild

/-! Filling a field in place. -/

namespace Pdfer.Forms

open Pdfer.Go Pdfer.Strings Pdfer.Manipulate Pdfer.Spec.Forms Pdfer.Spec Pdfer.Spec.Manipulate

theorem expand_plain (whole : Bytes) (t : Bytes) (h : (36 : UInt8) ∉ t) : ∀ n, t.length ≤ n → expand whole n t = t := by
  induction t with
  | nil => intro n _; cases n <;> rfl
  | cons c t ih =>
    intro n hn
    cases n with
    | zero => simp at hn
    | succ n =>
      have hc : c ≠ 36 := fun e => h (by simp [e])
      unfold expand
      rw [if_pos hc, ih (fun hm => h (by simp [hm])) n (by simpa using hn)]

theorem reV_prefix (s : Bytes) (h : reV s ≠ none) : b!"/V" <+: s := by
  apply reLit_prefix
  intro hn
  apply h
  simp [reV, hn]

theorem reV_paren {w old b : Bytes} (hw : ∀ c ∈ w, reSpace c = true) (ho : (41 : UInt8) ∉ old) :
    reV (b!"/V" ++ w ++ b!"(" ++ old ++ b!")" ++ b) = some b := by
  unfold reV
  rw [show b!"/V" ++ w ++ b!"(" ++ old ++ b!")" ++ b = b!"/V" ++ (w ++ (b!"(" ++ (old ++ (b!")" ++ b)))) by
    simp only [List.append_assoc], reLit_append, Option.bind_some]
  unfold reSp0
  rw [dropWhile_all hw (by intro c hc; simp at hc; subst hc; decide)]
  have hdw : (old ++ (b!")" ++ b)).dropWhile (· ≠ 41) = b!")" ++ b := by
    apply dropWhile_all
    · intro c hc
      simp only [decide_eq_true_eq, ne_eq]
      intro e; subst e; exact ho hc
    · intro c hc; simp at hc; subst hc; rfl
  have hm : (41 : UInt8) ∈ old ++ (b!")" ++ b) := by simp
  show (if (41 : UInt8) ∈ old ++ (b!")" ++ b) then some (((old ++ (b!")" ++ b)).dropWhile (· ≠ 41)).drop 1) else none) = _
  rw [if_pos hm, hdw]
  rfl

theorem setValue_replace {a w old b : Bytes} {v : Val} {ft : Bytes} (ha : NoOcc b!"/V" a) (hw : ∀ c ∈ w, White c)
    (ho : (41 : UInt8) ∉ old) (hb : NoOcc b!"/V" b) (h36 : (36 : UInt8) ∉ newV v ft) :
    setValue (a ++ (b!"/V" ++ w ++ b!"(" ++ old ++ b!")") ++ b) v ft = some (a ++ newV v ft ++ b) := by
  have hm := reV_paren (b := b) (fun c hc => white_reSpace.1 (hw c hc)) ho
  have hhead : ∀ d, ((b!"/V" ++ w ++ b!"(" ++ old ++ b!")") ++ b).head? = some d → d ∉ [(86 : UInt8)] := by
    intro d hd; simp at hd; subst hd; decide
  unfold setValue
  rw [List.append_assoc, searchWith_first reV_prefix hhead ha, searchWith_here hm]
  simp only [Option.isSome_some, if_true]
  rw [replaceRe_first reV_prefix hhead ha, replaceRe_here (by simp) hm, replaceRe_none reV_prefix hb,
    expand_plain _ _ h36 _ (Nat.le_refl _), List.append_assoc]

theorem lastIndex_free {c : UInt8} {p s : Bytes} (h : c ∉ s) : lastIndex (c :: p) s = none := by
  induction s with
  | nil => rfl
  | cons d s ih =>
    rw [lastIndex, ih (fun hm => h (by simp [hm]))]
    simp only
    rw [if_neg]
    intro hp
    simp only [List.isPrefixOf, Bool.and_eq_true, beq_iff_eq] at hp
    exact h (by simp [hp.1])

theorem lastIndex_end {a b : Bytes} (hb : (62 : UInt8) ∉ b) : lastIndex b!">>" (a ++ (b!">>" ++ b)) = some a.length := by
  have h0 : lastIndex b!">>" (b!">>" ++ b) = some 0 := by
    show lastIndex b!">>" (62 :: 62 :: b) = some 0
    rw [lastIndex, lastIndex, lastIndex_free hb]
    simp only
    have : ¬ (b!">>").isPrefixOf (62 :: b) = true := by
      intro h
      cases b with
      | nil => simp [List.isPrefixOf] at h
      | cons c b =>
        simp [List.isPrefixOf] at h
        exact hb (by simp [h])
    rw [if_neg this]
    simp [List.isPrefixOf]
  have := lastIndex_append a h0
  simpa using this

theorem setValue_insert {a b : Bytes} {v : Val} {ft : Bytes} (hs : NoOcc b!"/V" (a ++ b!">>" ++ b)) (hb : (62 : UInt8) ∉ b) :
    setValue (a ++ b!">>" ++ b) v ft = some (a ++ (newV v ft ++ b!" ") ++ b!">>" ++ b) := by
  unfold setValue
  rw [searchWith_none reV_prefix hs]
  simp only [Option.isSome_none, Bool.false_eq_true, if_false]
  unfold insertBeforeEnd
  rw [List.append_assoc, lastIndex_end hb]
  simp only [Option.map_some, Option.some.injEq]
  rw [List.take_left, List.drop_left]
  simp only [List.append_assoc]

/-! ### Replacing the object -/

theorem reSp1_spec {s t : Bytes} (h : reSp1 s = some t) : ∃ w, w ≠ [] ∧ (∀ c ∈ w, White c) ∧ s = w ++ t := by
  cases s with
  | nil => simp [reSp1] at h
  | cons c s =>
    simp only [reSp1] at h
    split at h
    · rename_i hc
      simp only [Option.some.injEq] at h
      refine ⟨c :: s.takeWhile reSpace, by simp, ?_, ?_⟩
      · intro d hd
        rw [white_reSpace]
        rcases List.mem_cons.1 hd with rfl | hd
        · exact hc
        · have : ∀ (l : Bytes), d ∈ l.takeWhile reSpace → reSpace d = true := by
            intro l
            induction l with
            | nil => simp
            | cons e l ih =>
              intro hm
              by_cases he : reSpace e = true
              · rw [List.takeWhile_cons_of_pos he] at hm
                rcases List.mem_cons.1 hm with rfl | hm
                · exact he
                · exact ih hm
              · rw [List.takeWhile_cons_of_neg he] at hm; simp at hm
          exact this s hd
      · rw [← h, List.cons_append, List.takeWhile_append_dropWhile]
    · simp at h

theorem itoa_head_not_space (n : Int) (s : Bytes) : ∀ c, (itoa n ++ s).head? = some c → reSpace c = false := by
  intro c hc
  unfold itoa at hc
  split at hc
  · exact isDigit_not_reSpace (natDec_head _ s c hc)
  · simp at hc; subst hc; decide

theorem reObjGen_some {n g : Int} {s r : Bytes} : reObjGen n g s = some r ↔
    ∃ w1 w2, w1 ≠ [] ∧ (∀ c ∈ w1, White c) ∧ w2 ≠ [] ∧ (∀ c ∈ w2, White c) ∧
      s = itoa n ++ w1 ++ itoa g ++ w2 ++ b!"obj" ++ r := by
  constructor
  · intro h
    unfold reObjGen at h
    simp only [Option.bind_eq_some_iff] at h
    obtain ⟨s1, h1, s2, h2, s3, h3, s4, h4, h5⟩ := h
    obtain ⟨w1, a1, a2, rfl⟩ := reSp1_spec h2
    obtain ⟨w2, b1, b2, rfl⟩ := reSp1_spec h4
    refine ⟨w1, w2, a1, a2, b1, b2, ?_⟩
    rw [reLit_some h1, reLit_some h3, reLit_some h5]
    simp only [List.append_assoc]
  · rintro ⟨w1, w2, h1, h2, h3, h4, rfl⟩
    unfold reObjGen
    rw [show itoa n ++ w1 ++ itoa g ++ w2 ++ b!"obj" ++ r = itoa n ++ (w1 ++ (itoa g ++ (w2 ++ (b!"obj" ++ r)))) by
      simp only [List.append_assoc], reLit_append, Option.bind_some,
      reSp1_white h1 (fun c hc => white_reSpace.1 (h2 c hc)) (itoa_head_not_space g _), Option.bind_some, reLit_append,
      Option.bind_some, reSp1_white h3 (fun c hc => white_reSpace.1 (h4 c hc)) (by intro c hc; simp at hc; subst hc; decide),
      Option.bind_some, reLit_append]

theorem searchWith_some_at {α : Type} {p : Bytes → Option α} {s : Bytes} {x : α} (h : searchWith p s = some x) :
    ∃ a t, s = a ++ t ∧ p t = some x ∧ ∀ j, j < a.length → p (s.drop j) = none := by
  induction s with
  | nil => exact ⟨[], [], rfl, h, by simp⟩
  | cons c s ih =>
    rw [searchWith] at h
    cases hc : p (c :: s) with
    | some y => rw [hc] at h; exact ⟨[], c :: s, rfl, by rw [hc]; exact h, by simp⟩
    | none =>
      rw [hc] at h
      obtain ⟨a, t, rfl, h2, h3⟩ := ih h
      refine ⟨c :: a, t, rfl, h2, ?_⟩
      intro j hj
      cases j with
      | zero => exact hc
      | succ j => simpa using h3 j (by simpa using hj)

theorem searchWith_at_first {α : Type} {p : Bytes → Option α} {a t : Bytes} {x : α} (h : p t = some x)
    (hn : ∀ j, j < a.length → p ((a ++ t).drop j) = none) : searchWith p (a ++ t) = some x := by
  induction a with
  | nil => exact searchWith_here h
  | cons c a ih =>
    rw [List.cons_append, searchWith]
    have h0 := hn 0 (by simp)
    simp only [List.drop_zero, List.cons_append] at h0
    rw [h0]
    apply ih
    intro j hj
    have := hn (j + 1) (by simpa using hj)
    simpa using this

/-- The exact effect of replacing an object: only the bytes from behind the header up to the end of `endobj` change. -/
theorem replaceObject_some {pdf new r : Bytes} {n g : Int} : replaceObject pdf n g new = some r ↔
    ∃ a hd old z, pdf = a ++ hd ++ (old ++ b!"endobj") ++ z ∧ r = a ++ hd ++ (b!"\n" ++ new ++ b!"\nendobj\n") ++ z ∧
      HeaderText n g hd ∧ (∀ j, j < a.length → ¬ HeaderAt n g pdf j) ∧
      index b!"endobj" (old ++ b!"endobj" ++ z) = some old.length := by
  have hiff : ∀ s, reObjGen n g s = none ↔ ∀ hd t, s = hd ++ t → ¬ HeaderText n g hd := by
    intro s
    constructor
    · rintro h hd t rfl ⟨w1, w2, h1, h2, h3, h4, e⟩
      have : reObjGen n g (hd ++ t) = some t := reObjGen_some.2 ⟨w1, w2, h1, h2, h3, h4, by rw [e]⟩
      rw [h] at this; simp at this
    · intro h
      cases hx : reObjGen n g s with
      | none => rfl
      | some t =>
        obtain ⟨w1, w2, h1, h2, h3, h4, e⟩ := reObjGen_some.1 hx
        exact absurd ⟨w1, w2, h1, h2, h3, h4, rfl⟩ (h _ t e)
  have hat : ∀ j, reObjGen n g (pdf.drop j) = none ↔ ¬ HeaderAt n g pdf j := by
    intro j
    rw [hiff]
    unfold HeaderAt
    constructor
    · rintro h ⟨hd, t, e, hh⟩; exact h hd t e hh
    · intro h hd t e hh; exact h ⟨hd, t, e, hh⟩
  constructor
  · intro h
    unfold replaceObject at h
    simp only [Option.bind_eq_some_iff, Option.map_eq_some_iff] at h
    obtain ⟨rest, h1, e, h2, h3⟩ := h
    obtain ⟨a, t, hp, h4, h5⟩ := searchWith_some_at h1
    obtain ⟨w1, w2, x1, x2, x3, x4, ht⟩ := reObjGen_some.1 h4
    rw [index_eq_some_iff] at h2
    obtain ⟨hle, ⟨z, hz⟩, hmin⟩ := h2
    have hrest : rest = rest.take e ++ (b!"endobj" ++ z) := by rw [hz, List.take_append_drop]
    have hlen : (rest.take e).length = e := by rw [List.length_take]; omega
    refine ⟨a, itoa n ++ w1 ++ itoa g ++ w2 ++ b!"obj", rest.take e, z, ?_, ?_, ⟨w1, w2, x1, x2, x3, x4, rfl⟩, ?_, ?_⟩
    · rw [hp, ht, hrest]
      simp only [List.append_assoc]
      rw [List.take_left' (by rw [hlen]), hz]
    · rw [← h3]
      have e1 : pdf.take (pdf.length - rest.length) = a ++ (itoa n ++ w1 ++ itoa g ++ w2 ++ b!"obj") := by
        rw [hp, ht, ← List.append_assoc]
        apply List.take_left'
        simp only [List.length_append]; omega
      have e2 : rest.drop (e + 6) = z := by
        rw [← List.drop_drop, ← hz]; rfl
      rw [e1, e2]
      simp only [List.append_assoc]
    · intro j hj
      exact (hat j).1 (h5 j hj)
    · have : rest.take e ++ b!"endobj" ++ z = rest := by rw [List.append_assoc, ← hrest]
      rw [this, hlen, index_eq_some_iff]
      exact ⟨hle, ⟨z, hz⟩, hmin⟩
  · rintro ⟨a, hd, old, z, hp, hr, ⟨w1, w2, h1, h2, h3, h4, e⟩, hno, hidx⟩
    unfold replaceObject
    have hp2 : pdf = a ++ (hd ++ (old ++ b!"endobj" ++ z)) := by rw [hp]; simp only [List.append_assoc]
    have hm : reObjGen n g (hd ++ (old ++ b!"endobj" ++ z)) = some (old ++ b!"endobj" ++ z) :=
      reObjGen_some.2 ⟨w1, w2, h1, h2, h3, h4, by rw [e]⟩
    have hs : searchWith (reObjGen n g) pdf = some (old ++ b!"endobj" ++ z) := by
      rw [hp2]
      apply searchWith_at_first hm
      intro j hj
      rw [← hp2]
      exact (hat j).2 (hno j hj)
    rw [hs, Option.bind_some, hidx, Option.map_some, hr]
    simp only [Option.some.injEq]
    have e1 : pdf.take (pdf.length - (old ++ b!"endobj" ++ z).length) = a ++ hd := by
      rw [hp2, ← List.append_assoc]
      apply List.take_left'
      simp only [List.length_append]; omega
    have e2 : (old ++ b!"endobj" ++ z).drop (old.length + 6) = z := by
      apply List.drop_left'
      simp
    rw [e1, e2]
    simp only [List.append_assoc]

end Pdfer.Forms
