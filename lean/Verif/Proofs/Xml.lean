import Verif.Spec.Xml
import Verif.Proofs.Datasets
import Verif.Proofs.Rotate

/-! Reading written XML in spite of indentation. -/

namespace Pdfer.XFASets

open Pdfer.Go Pdfer.XFA
open Pdfer.Spec.Xml

/-- Nothing, or white space. -/
def Gap (g : List Tok) : Prop := g = [] ∨ ∃ w, Blank w ∧ g = [.chars w]

theorem woven_append {c : Bool} {a b dec : List Tok} (h : Woven c (a ++ b) dec) :
    ∃ c' d1 d2, dec = d1 ++ d2 ∧ Woven c a d1 ∧ Woven c' b d2 := by
  induction a generalizing c dec with
  | nil => exact ⟨c, [], dec, rfl, .nil, h⟩
  | cons t a ih =>
    rw [List.cons_append] at h
    cases h with
    | start n as h => obtain ⟨c', d1, d2, rfl, h1, h2⟩ := ih h; exact ⟨c', _, d2, rfl, .start n as h1, h2⟩
    | startIndent w n as hw h => obtain ⟨c', d1, d2, rfl, h1, h2⟩ := ih h; exact ⟨c', _, d2, rfl, .startIndent w n as hw h1, h2⟩
    | close n h => obtain ⟨c', d1, d2, rfl, h1, h2⟩ := ih h; exact ⟨c', _, d2, rfl, .close n h1, h2⟩
    | closeIndent w n hw h => obtain ⟨c', d1, d2, rfl, h1, h2⟩ := ih h; exact ⟨c', _, d2, rfl, .closeIndent w n hw h1, h2⟩
    | chars t h => obtain ⟨c', d1, d2, rfl, h1, h2⟩ := ih h; exact ⟨c', _, d2, rfl, .chars t h1, h2⟩
    | empty h => obtain ⟨c', d1, d2, rfl, h1, h2⟩ := ih h; exact ⟨c', d1, d2, rfl, .empty h1, h2⟩

/-- A decoder that adds nothing. -/
theorem woven_refl (c : Bool) (enc : List Tok) : Woven c enc enc := by
  induction enc generalizing c with
  | nil => exact .nil
  | cons t enc ih =>
    cases t with
    | start n as => exact .start n as (ih _)
    | close n => exact .close n (ih _)
    | chars w => exact .chars w (ih _)

theorem woven_nil {c : Bool} {dec : List Tok} (h : Woven c [] dec) : dec = [] := by cases h; rfl

theorem woven_start {c : Bool} {n : Bytes} {as : List (Bytes × Bytes)} {enc dec : List Tok} (h : Woven c (.start n as :: enc) dec) :
    ∃ g d, Gap g ∧ dec = g ++ .start n as :: d ∧ Woven false enc d := by
  cases h with
  | start _ _ h => exact ⟨[], _, .inl rfl, rfl, h⟩
  | startIndent w _ _ hw h => exact ⟨[.chars w], _, .inr ⟨w, hw, rfl⟩, rfl, h⟩

theorem woven_close {c : Bool} {n : Bytes} {enc dec : List Tok} (h : Woven c (.close n :: enc) dec) :
    ∃ g d, Gap g ∧ (c = false → g = []) ∧ dec = g ++ .close n :: d ∧ Woven true enc d := by
  cases h with
  | close _ h => exact ⟨[], _, .inl rfl, fun _ => rfl, rfl, h⟩
  | closeIndent w _ hw h => exact ⟨[.chars w], _, .inr ⟨w, hw, rfl⟩, nofun, rfl, h⟩

theorem woven_chars {c : Bool} {t : Bytes} {enc dec : List Tok} (h : Woven c (.chars t :: enc) dec) :
    ∃ m d, (m = [.chars t] ∨ (t = [] ∧ m = [])) ∧ dec = m ++ d ∧ Woven c enc d := by
  cases h with
  | chars _ h => exact ⟨_, _, .inl rfl, rfl, h⟩
  | empty h => exact ⟨[], _, .inr ⟨rfl, rfl⟩, rfl, h⟩

/-- An element without content. -/
theorem woven_bare {c : Bool} {n : Bytes} {as : List (Bytes × Bytes)} {dec : List Tok} (h : Woven c (bare n as) dec) :
    ∃ g, Gap g ∧ dec = g ++ [.start n as, .close n] := by
  obtain ⟨g, d, hg, rfl, h1⟩ := woven_start h
  obtain ⟨g2, d2, _, h2, rfl, h3⟩ := woven_close h1
  cases woven_nil h3
  cases h2 rfl
  exact ⟨g, hg, rfl⟩

/-- An element with text only. -/
theorem woven_text {c : Bool} {n t : Bytes} {as : List (Bytes × Bytes)} {dec : List Tok} (h : Woven c [.start n as, .chars t, .close n] dec) :
    ∃ g m, Gap g ∧ (m = [.chars t] ∨ (t = [] ∧ m = [])) ∧ dec = g ++ .start n as :: (m ++ [.close n]) := by
  obtain ⟨g, d, hg, rfl, h1⟩ := woven_start h
  obtain ⟨m, d, hm, rfl, h2⟩ := woven_chars h1
  obtain ⟨g2, d2, _, h3, rfl, h4⟩ := woven_close h2
  cases woven_nil h4
  cases h3 rfl
  exact ⟨g, m, hg, hm, rfl⟩

/-- One start tag. -/
theorem woven_start1 {c : Bool} {n : Bytes} {as : List (Bytes × Bytes)} {dec : List Tok} (h : Woven c [.start n as] dec) :
    ∃ g, Gap g ∧ dec = g ++ [.start n as] := by
  obtain ⟨g, d, hg, rfl, h1⟩ := woven_start h
  cases woven_nil h1
  exact ⟨g, hg, rfl⟩

/-- One end tag. -/
theorem woven_close1 {c : Bool} {n : Bytes} {dec : List Tok} (h : Woven c [.close n] dec) :
    ∃ g, Gap g ∧ dec = g ++ [.close n] := by
  obtain ⟨g, d, hg, _, rfl, h1⟩ := woven_close h
  cases woven_nil h1
  exact ⟨g, hg, rfl⟩

/-- Whatever the decoder delivers for the tokens, a run that begins in a state with `P` ends in one with `Q`. -/
def Reads {S : Type} (step : S → Tok → S) (P : S → Prop) (enc : List Tok) (Q : S → Prop) : Prop :=
  ∀ c dec st, Woven c enc dec → P st → Q (dec.foldl step st)

theorem Reads.nil {S : Type} {step : S → Tok → S} {P : S → Prop} : Reads step P [] P := by
  intro c dec st h hp
  rw [woven_nil h]
  exact hp

theorem Reads.append {S : Type} {step : S → Tok → S} {P Q R : S → Prop} {a b : List Tok} (h1 : Reads step P a Q) (h2 : Reads step Q b R) :
    Reads step P (a ++ b) R := by
  intro c dec st h hp
  obtain ⟨c', d1, d2, rfl, ha, hb⟩ := woven_append h
  rw [List.foldl_append]
  exact h2 c' d2 _ hb (h1 c d1 st ha hp)

/-- The state after white space. -/
theorem gap_fold {S : Type} {step : S → Tok → S} {P : S → Prop} {g : List Tok} (hg : Gap g) {st : S} (h : P st)
    (hp : ∀ st w, Blank w → P st → P (step st (.chars w))) : P (g.foldl step st) := by
  rcases hg with rfl | ⟨w, hw, rfl⟩
  · exact h
  · exact hp st w hw h

theorem Reads.bare {S : Type} {step : S → Tok → S} {P Q : S → Prop} {n : Bytes} {as : List (Bytes × Bytes)}
    (hp : ∀ st w, Blank w → P st → P (step st (.chars w))) (h : ∀ st, P st → Q (step (step st (.start n as)) (.close n))) :
    Reads step P (bare n as) Q := by
  intro c dec st hw hst
  obtain ⟨g, hg, rfl⟩ := woven_bare hw
  rw [List.foldl_append]
  exact h _ (gap_fold hg hst hp)

theorem Reads.start {S : Type} {step : S → Tok → S} {P Q : S → Prop} {n : Bytes} {as : List (Bytes × Bytes)}
    (hp : ∀ st w, Blank w → P st → P (step st (.chars w))) (h : ∀ st, P st → Q (step st (.start n as))) : Reads step P [.start n as] Q := by
  intro c dec st hw hst
  obtain ⟨g, hg, rfl⟩ := woven_start1 hw
  rw [List.foldl_append]
  exact h _ (gap_fold hg hst hp)

theorem Reads.close {S : Type} {step : S → Tok → S} {P Q : S → Prop} {n : Bytes}
    (hp : ∀ st w, Blank w → P st → P (step st (.chars w))) (h : ∀ st, P st → Q (step st (.close n))) : Reads step P [.close n] Q := by
  intro c dec st hw hst
  obtain ⟨g, hg, rfl⟩ := woven_close1 hw
  rw [List.foldl_append]
  exact h _ (gap_fold hg hst hp)

theorem Reads.text {S : Type} {step : S → Tok → S} {P Q : S → Prop} {n t : Bytes}
    (hp : ∀ st w, Blank w → P st → P (step st (.chars w)))
    (he : t = [] → ∀ st, P st → step (step st (.start n [])) (.chars []) = step st (.start n []))
    (h : ∀ st, P st → Q (step (step (step st (.start n [])) (.chars t)) (.close n))) :
    Reads step P [.start n [], .chars t, .close n] Q := by
  intro c dec st hw hst
  obtain ⟨g, m, hg, hm, rfl⟩ := woven_text hw
  rw [List.foldl_append]
  have := gap_fold hg hst hp
  rcases hm with rfl | ⟨ht, rfl⟩
  · exact h _ this
  · have h2 := h _ this
    subst ht
    rw [he rfl _ this] at h2
    exact h2

theorem Reads.part {S A : Type} {step : S → Tok → S} {P : S → Prop} {Q : Option A → S → Prop} {enc : A → List Tok}
    (hn : ∀ st, P st → Q none st) (hs : ∀ a, Reads step P (enc a) (Q (some a))) (o : Option A) : Reads step P (part enc o) (Q o) := by
  cases o with
  | none =>
    intro c dec st h hp
    have h' : dec = [] := woven_nil h
    subst h'
    exact hn _ hp
  | some a => exact hs a

/-- A list of parts. -/
theorem Reads.list {S A : Type} {step : S → Tok → S} {P : List A → S → Prop} {enc : A → List Tok}
    (h : ∀ done a, Reads step (P done) (enc a) (P (done ++ [a]))) (l done : List A) : Reads step (P done) (l.flatMap enc) (P (done ++ l)) := by
  induction l generalizing done with
  | nil => simpa using Reads.nil
  | cons a l ih =>
    rw [List.flatMap_cons]
    have := (h done a).append (ih (done ++ [a]))
    simpa using this

/-! ### Attributes -/

variable {R : Type} {f : R → Bytes × Bytes → R}

theorem fold_str {k v : Bytes} {r r' : R} (h : f r (k, v) = r') (h0 : v = [] → r = r') : (strAttr k v).foldl f r = r' := by
  unfold strAttr
  split
  · exact h
  · rename_i hv; simpa using h0 (by simpa using hv)

theorem fold_bool {k : Bytes} {x : Bool} {r r' : R} (h : x = true → f r (k, b!"1") = r') (h0 : x = false → r = r') : (boolAttr k x).foldl f r = r' := by
  unfold boolAttr
  split
  · rename_i hx; exact h hx
  · rename_i hv; simpa using h0 (by simpa using hv)

theorem fold_int {k : Bytes} {n : Int} {r r' : R} (h : 0 < n → f r (k, itoa n) = r') (h0 : ¬ 0 < n → r = r') : (intAttr k n).foldl f r = r' := by
  unfold intAttr
  split
  · rename_i hx; exact h hx
  · rename_i hv; simpa using h0 hv

/-- The precision that is read back. -/
theorem int_back {n old : Int} (h : 0 < n) (hb : n ≤ 9223372036854775807) : intOr old (itoa n) = n := by
  unfold intOr
  rw [Manipulate.atoi_itoa n (by omega) hb]
  rfl

end Pdfer.XFASets
