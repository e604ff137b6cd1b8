import Verif.Proofs.Symmetry
import Verif.Props.Compare

/-! Property C165: comparing in the other order. -/

namespace Pdfer.Props

open Pdfer.Go Pdfer.Compare

/-- C165: the texts of two pages compared in either order show as many modifications, and as many additions one way as removals the other
way; for all options. -/
theorem C165_text_numbers (o : Opts) (a b : List Elem) :
    let d := (compareText o a b).getD ⟨[], [], []⟩
    let d' := (compareText o b a).getD ⟨[], [], []⟩
    (compareText o a b = none ↔ compareText o b a = none) ∧
      d'.added.length = d.removed.length ∧ d'.removed.length = d.added.length ∧ d'.modified.length = d.modified.length := by
  intro d d'
  have get : ∀ x y : List Elem, (compareText o x y).getD ⟨[], [], []⟩ = textDiff o x y ∧
      (compareText o x y = none ↔ (textDiff o x y).added.length = 0 ∧ (textDiff o x y).removed.length = 0 ∧ (textDiff o x y).modified.length = 0) := by
    intro x y
    rw [compareText_eq]
    simp only [List.length_eq_zero_iff]
    split
    · rename_i h
      refine ⟨?_, by simp [h]⟩
      obtain ⟨h1, h2, h3⟩ := h
      show (⟨[], [], []⟩ : TextDiff) = textDiff o x y
      cases hd : textDiff o x y
      rw [hd] at h1 h2 h3
      simp only at h1 h2 h3
      rw [h1, h2, h3]
    · rename_i h
      exact ⟨rfl, by simp [h]⟩
  obtain ⟨n1, n2, n3⟩ := textDiff_numbers o a b
  have e : d = textDiff o a b := (get a b).1
  have e' : d' = textDiff o b a := (get b a).1
  rw [e, e']
  refine ⟨?_, n1, n2, n3⟩
  rw [(get a b).2, (get b a).2]
  omega

/-- C165: with comparison by words or by characters, exactly the same: what is added one way is removed the other way, in the same order, and
the modified pairs are the same pairs. -/
theorem C165_text_partial (o : Opts) (hg : o.gran ≠ .element) (a b : List Elem) :
    let d := (compareText o a b).getD ⟨[], [], []⟩
    let d' := (compareText o b a).getD ⟨[], [], []⟩
    d'.added = d.removed ∧ d'.removed = d.added ∧ d'.modified.Perm (d.modified.map fun p => (p.2, p.1)) := by
  intro d d'
  have get : ∀ x y : List Elem, (compareText o x y).getD ⟨[], [], []⟩ = textDiff o x y := by
    intro x y
    rw [compareText_eq]
    split
    · rename_i h
      obtain ⟨h1, h2, h3⟩ := h
      show (⟨[], [], []⟩ : TextDiff) = textDiff o x y
      cases hd : textDiff o x y
      rw [hd] at h1 h2 h3
      simp only at h1 h2 h3
      rw [h1, h2, h3]
    · rfl
  have e : d = textDiff o a b := get a b
  have e' : d' = textDiff o b a := get b a
  rw [e, e']
  exact textDiff_exchanged o hg a b

/-- C165: with comparison by elements, which of two swapped words is reported as moved depends on the order. -/
theorem C165_which_violated :
    compareText {} [⟨b!"a", 0, 0, b!"F", 9, []⟩, ⟨b!"b", 50, 0, b!"F", 9, []⟩] [⟨b!"b", 100, 0, b!"F", 9, []⟩, ⟨b!"a", 150, 0, b!"F", 9, []⟩] =
      some ⟨[⟨b!"a", 150, 0, b!"F", 9, []⟩], [⟨b!"a", 0, 0, b!"F", 9, []⟩], [(⟨b!"b", 50, 0, b!"F", 9, []⟩, ⟨b!"b", 100, 0, b!"F", 9, []⟩)]⟩ ∧
    compareText {} [⟨b!"b", 100, 0, b!"F", 9, []⟩, ⟨b!"a", 150, 0, b!"F", 9, []⟩] [⟨b!"a", 0, 0, b!"F", 9, []⟩, ⟨b!"b", 50, 0, b!"F", 9, []⟩] =
      some ⟨[⟨b!"b", 50, 0, b!"F", 9, []⟩], [⟨b!"b", 100, 0, b!"F", 9, []⟩], [(⟨b!"a", 150, 0, b!"F", 9, []⟩, ⟨b!"a", 0, 0, b!"F", 9, []⟩)]⟩ := by
  constructor <;> decide +kernel

/-- C165: images compared in the other order: added and removed are exchanged, in their order, and the modified and the moved pairs are the
same pairs. -/
theorem C165_images (data1 data2 : Bytes → Option Img) (a b : List ImgRef) :
    let d := (compareImages data1 data2 a b).getD ⟨[], [], [], []⟩
    let d' := (compareImages data2 data1 b a).getD ⟨[], [], [], []⟩
    (compareImages data1 data2 a b = none ↔ compareImages data2 data1 b a = none) ∧ d'.added = d.removed ∧ d'.removed = d.added ∧
      d'.modified.Perm (d.modified.map fun p => (p.2, p.1)) ∧ d'.moved.Perm (d.moved.map fun p => (p.2, p.1)) := by
  intro d d'
  obtain ⟨P, hP⟩ : ∃ P, P = imagePairs data1 data2 a b := ⟨_, rfl⟩
  obtain ⟨Q, hQ⟩ : ∃ Q, Q = imagePairs data2 data1 b a := ⟨_, rfl⟩
  have hPQ : Q.Perm (turn P) := by rw [hP, hQ]; exact imagePairs_turn data1 data2 a b
  have hx : Q.Perm (turn P) → ImagesExchanged (imageDiff a b P) (imageDiff b a Q) := imageDiff_turn a b
  have e : d = imageDiff a b P ∧ (compareImages data1 data2 a b = none ↔ (imageDiff a b P).added = [] ∧ (imageDiff a b P).removed = [] ∧
      (imageDiff a b P).modified = [] ∧ (imageDiff a b P).moved = []) := by rw [hP]; exact compareImages_diff data1 data2 a b
  have e' : d' = imageDiff b a Q ∧ (compareImages data2 data1 b a = none ↔ (imageDiff b a Q).added = [] ∧ (imageDiff b a Q).removed = [] ∧
      (imageDiff b a Q).modified = [] ∧ (imageDiff b a Q).moved = []) := by rw [hQ]; exact compareImages_diff data2 data1 b a
  obtain ⟨h1, h2, h3, h4⟩ := hx hPQ
  rw [e.1, e'.1]
  refine ⟨?_, h1, h2, h3, h4⟩
  rw [e.2, e'.2, h1, h2]
  have l3 := h3.length_eq
  have l4 := h4.length_eq
  rw [List.length_map] at l3 l4
  simp only [← List.length_eq_zero_iff, l3, l4]
  omega

/-- C165: the same fields of the metadata are reported. -/
theorem C165_metadata (o : Opts) (m1 m2 : Option Meta) : compareMetadata o m1 m2 = compareMetadata o m2 m1 := by
  unfold compareMetadata
  cases m1 with
  | none => cases m2 <;> rfl
  | some a =>
    cases m2 with
    | none => rfl
    | some b =>
      simp only [ne_comm (a := a.title), ne_comm (a := a.author), ne_comm (a := a.subject), ne_comm (a := a.keywords), ne_comm (a := a.creator),
        bne_symm a.producer, bne_symm a.creationDate, bne_symm a.modDate, ne_comm (a := a.version), ne_comm (a := a.pageCount),
        ne_comm (a := a.encrypted)]

/-- C165: fields that are added one way are removed the other way, and modified fields are modified with old and new value exchanged. -/
theorem C165_forms (a b : Form) (ht : a.typ = b.typ) (ha : a.values.keys.Nodup) (hb : b.values.keys.Nodup) :
    let d := (compareForms (some a) (some b)).getD ⟨[], [], [], none⟩
    let d' := (compareForms (some b) (some a)).getD ⟨[], [], [], none⟩
    (∀ e, e ∈ d'.added ↔ e ∈ d.removed) ∧ (∀ e, e ∈ d'.removed ↔ e ∈ d.added) ∧
      (∀ k v w, (k, v, w) ∈ d'.modified ↔ (k, w, v) ∈ d.modified) := by
  intro d d'
  obtain ⟨h1, h2, h3⟩ := C45_exact_partial a b ht ha hb
  obtain ⟨g1, g2, g3⟩ := C45_exact_partial b a ht.symm hb ha
  have comm : ∀ v w : Value, PrintedAlike v w ↔ PrintedAlike w v := by
    intro v w
    unfold PrintedAlike
    grind
  refine ⟨fun e => (g1 e.1 e.2).trans (h2 e.1 e.2).symm, fun e => (g2 e.1 e.2).trans (h1 e.1 e.2).symm, fun k v w => ?_⟩
  refine (g3 k v w).trans (Iff.trans ?_ (h3 k w v).symm)
  rw [comm v w]
  exact ⟨fun ⟨x, y, z⟩ => ⟨y, x, z⟩, fun ⟨x, y, z⟩ => ⟨y, x, z⟩⟩

/-- C165: graphics and annotations that differ within each page: the same verdict. -/
theorem C165_graphics_partial (fmt1 : Rat → Bytes) (a b : List Shape) (ha : (a.map (shapeKey fmt1)).Nodup) (hb : (b.map (shapeKey fmt1)).Nodup) :
    compareKeyed (shapeKey fmt1) a b = none ↔ compareKeyed (shapeKey fmt1) b a = none := by
  rw [compareKeyed_none, compareKeyed_none]
  exact ⟨fun h => ⟨ha, fun k => (h.2 k).symm⟩, fun h => ⟨hb, fun k => (h.2 k).symm⟩⟩

/-- C165: a page with one rectangle drawn twice equals a page with the rectangle drawn once, but not the other way round. -/
theorem C165_graphics_violated (fmt1 : Rat → Bytes) (g : Shape) :
    compareKeyed (shapeKey fmt1) [g, g] [g] = none ∧ compareKeyed (shapeKey fmt1) [g] [g, g] ≠ none := by
  rw [Ne, compareKeyed_none, compareKeyed_none]
  simp

theorem ite_ne_symm {α β : Type} [DecidableEq α] (x y : α) (u v : β) : (if x ≠ y then u else v) = if y ≠ x then u else v := by
  by_cases h : x = y
  · subst h; rfl
  · rw [if_pos h, if_pos (Ne.symm h)]

theorem page_length (fmt1 : Rat → Bytes) (o : Opts) (p q : Page) :
    (comparePage fmt1 o p q).length = (if p.width ≠ q.width then 1 else if p.height ≠ q.height then 1 else 0) + (if p.rotation ≠ q.rotation then 1 else 0) +
      (if compareText o p.text q.text = none then 0 else 1) + (if compareKeyed (shapeKey fmt1) p.graphics q.graphics = none then 0 else 1) +
      (if compareImages p.data q.data p.images q.images = none then (if p.images.length ≠ q.images.length then 1 else 0) else 1) +
      (if compareKeyed (shapeKey fmt1) p.annotations q.annotations = none then 0 else 1) := by
  unfold comparePage
  cases compareText o p.text q.text <;> cases compareKeyed (shapeKey fmt1) p.graphics q.graphics <;>
    cases compareImages p.data q.data p.images q.images <;> cases compareKeyed (shapeKey fmt1) p.annotations q.annotations <;>
    by_cases h1 : p.width = q.width <;> by_cases h2 : p.height = q.height <;> by_cases h3 : p.rotation = q.rotation <;>
    by_cases h4 : p.images.length = q.images.length <;> simp [h1, h2, h3, h4]

/-- The number of differences listed for two pages does not depend on their order. -/
theorem page_symmetric (fmt1 : Rat → Bytes) (o : Opts) (p q : Page) (hp : SelfComparable fmt1 p) (hq : SelfComparable fmt1 q) :
    (comparePage fmt1 o p q).length = (comparePage fmt1 o q p).length := by
  have ht := (C165_text_numbers o p.text q.text).1
  have hi := (C165_images p.data q.data p.images q.images).1
  have hg := C165_graphics_partial fmt1 p.graphics q.graphics hp.1 hq.1
  have ha := C165_graphics_partial fmt1 p.annotations q.annotations hp.2 hq.2
  rw [page_length, page_length]
  simp only [ht, hi, hg, ha]
  rw [ite_ne_symm p.width, ite_ne_symm p.height, ite_ne_symm p.rotation, ite_ne_symm p.images.length]

theorem pages_symmetric (fmt1 : Rat → Bytes) (o : Opts) : ∀ (ps qs : List Page) (k : Nat), (∀ p ∈ ps, SelfComparable fmt1 p) →
    (∀ q ∈ qs, SelfComparable fmt1 q) →
    (comparePages fmt1 o k ps qs).map (fun e => (e.1, e.2.length)) = (comparePages fmt1 o k qs ps).map (fun e => (e.1, e.2.length))
  | [], [], _, _, _ => rfl
  | p :: ps, [], k, hp, hq => by
    rw [comparePages, comparePages, List.map_cons, List.map_cons, pages_symmetric fmt1 o ps [] (k + 1) (fun p h => hp p (by simp [h])) hq]
    rfl
  | [], q :: qs, k, hp, hq => by
    rw [comparePages, comparePages, List.map_cons, List.map_cons, pages_symmetric fmt1 o [] qs (k + 1) hp (fun p h => hq p (by simp [h]))]
    rfl
  | p :: ps, q :: qs, k, hp, hq => by
    have hl := page_symmetric fmt1 o p q (hp p (by simp)) (hq q (by simp))
    have ih := pages_symmetric fmt1 o ps qs (k + 1) (fun p h => hp p (by simp [h])) (fun q h => hq q (by simp [h]))
    rw [comparePages, comparePages]
    by_cases h : comparePage fmt1 o p q = []
    · have h' : comparePage fmt1 o q p = [] := List.eq_nil_of_length_eq_zero (by rw [← hl, h]; rfl)
      rw [if_pos h, if_pos h', ih]
    · have h' : comparePage fmt1 o q p ≠ [] := fun he => h (List.eq_nil_of_length_eq_zero (by rw [hl, he]; rfl))
      rw [if_neg h, if_neg h', List.map_cons, List.map_cons, ih, hl]

/-- C165 (partial: no page draws the same thing twice): the comparison in the other order reports as many differences, on the same pages in
the same numbers, and the same verdict; for all options. -/
theorem C165_document_partial (fmt1 : Rat → Bytes) (o : Opts) (d1 d2 : Doc) (h1 : ∀ p ∈ d1.pages, SelfComparable fmt1 p)
    (h2 : ∀ p ∈ d2.pages, SelfComparable fmt1 p) (f1 : ∀ a, d1.form = some a → a.values.keys.Nodup)
    (f2 : ∀ a, d2.form = some a → a.values.keys.Nodup) :
    totalDifferences fmt1 o d1 d2 = totalDifferences fmt1 o d2 d1 ∧ identical fmt1 o d1 d2 = identical fmt1 o d2 d1 ∧
      (comparePages fmt1 o 1 d1.pages d2.pages).map (fun e => (e.1, e.2.length)) =
        (comparePages fmt1 o 1 d2.pages d1.pages).map (fun e => (e.1, e.2.length)) := by
  have hp := pages_symmetric fmt1 o d1.pages d2.pages 1 h1 h2
  have hs : (comparePages fmt1 o 1 d1.pages d2.pages).map (·.2.length) = (comparePages fmt1 o 1 d2.pages d1.pages).map (·.2.length) := by
    have := congrArg (List.map (·.2)) hp
    simpa [List.map_map, Function.comp_def] using this
  have hf : (match compareForms d1.form d2.form with
      | some f => if f.added ≠ [] ∨ f.removed ≠ [] ∨ f.modified ≠ [] ∨ f.formType ≠ none then 1 else 0
      | none => 0) = (match compareForms d2.form d1.form with
      | some f => if f.added ≠ [] ∨ f.removed ≠ [] ∨ f.modified ≠ [] ∨ f.formType ≠ none then 1 else 0
      | none => 0) := by
    cases e1 : d1.form with
    | none => cases e2 : d2.form <;> simp [compareForms]
    | some a =>
      cases e2 : d2.form with
      | none => simp [compareForms]
      | some b =>
        by_cases ht : a.typ = b.typ
        · obtain ⟨g1, g2, g3⟩ := C165_forms a b ht (f1 a e1) (f2 b e2)
          have count : ∀ x y : Form, x.typ = y.typ → (match compareForms (some x) (some y) with
              | some f => if f.added ≠ [] ∨ f.removed ≠ [] ∨ f.modified ≠ [] ∨ f.formType ≠ none then 1 else 0
              | none => 0) = (let d := (compareForms (some x) (some y)).getD ⟨[], [], [], none⟩
                if d.added ≠ [] ∨ d.removed ≠ [] ∨ d.modified ≠ [] then 1 else 0) := by
            intro x y hxy
            unfold compareForms
            simp only [hxy, ne_eq, not_true_eq_false, if_false]
            generalize y.values.filter (fun e => (x.values.get e.1).isNone) = A
            generalize x.values.filter (fun e => (y.values.get e.1).isNone) = B
            generalize x.values.filterMap (fun e => (y.values.get e.1).bind fun v2 => if valuesEqual e.2 v2 = true then none else some (e.1, e.2, v2)) = C
            by_cases h : A = [] ∧ B = [] ∧ C = []
            · rw [if_pos h]; simp
            · rw [if_neg h]; simp
          rw [count a b ht, count b a ht.symm]
          generalize (compareForms (some a) (some b)).getD ⟨[], [], [], none⟩ = d at g1 g2 g3 ⊢
          generalize (compareForms (some b) (some a)).getD ⟨[], [], [], none⟩ = d' at g1 g2 g3 ⊢
          have m1 : d'.added = [] ↔ d.removed = [] := by simp only [List.eq_nil_iff_forall_not_mem, g1]
          have m2 : d'.removed = [] ↔ d.added = [] := by simp only [List.eq_nil_iff_forall_not_mem, g2]
          have m3 : d'.modified = [] ↔ d.modified = [] := by
            simp only [List.eq_nil_iff_forall_not_mem]
            exact ⟨fun h e he => h (e.1, e.2.2, e.2.1) ((g3 _ _ _).2 he), fun h e he => h (e.1, e.2.2, e.2.1) ((g3 _ _ _).1 he)⟩
          simp only [ne_eq, m1, m2, m3]
          congr 1
          rw [eq_iff_iff]
          constructor <;> (rintro (h | h | h) <;> simp [h])
        · have ht' : ¬ b.typ = a.typ := fun h => ht h.symm
          simp [compareForms, ht, ht']
  have e : totalDifferences fmt1 o d1 d2 = totalDifferences fmt1 o d2 d1 := by
    unfold totalDifferences
    rw [hs, C165_metadata, ite_ne_symm d1.pages.length, ite_ne_symm d1.bookmarks]
    exact congrArg _ hf
  exact ⟨e, by unfold identical; rw [e], hp⟩

/-- Two pages that meet the hypotheses and differ in text and graphics. -/
example : let p : Page := ⟨100, 100, 0, [⟨b!"a", 0, 0, b!"F", 9, []⟩, ⟨b!"b", 50, 0, b!"F", 9, []⟩], [⟨b!"rect", some (1, 2, 3, 4), []⟩], [], [], fun _ => none⟩
    let q : Page := ⟨100, 100, 0, [⟨b!"c", 1, 1, b!"F", 9, []⟩], [], [], [], fun _ => none⟩
    SelfComparable (fun r => itoa r.num) p ∧ SelfComparable (fun r => itoa r.num) q ∧
    (comparePage (fun r => itoa r.num) {} p q).length = 2 ∧ (comparePage (fun r => itoa r.num) {} q p).length = 2 := by
  intro p q
  refine ⟨⟨by decide, by decide⟩, ⟨by decide, by decide⟩, ?_, ?_⟩ <;> decide +kernel

/-- Forms that meet the hypotheses: one field each, and one shared with another value. -/
example : compareForms (some ⟨b!"acroform", [(b!"a", .int 1), (b!"c", .int 1)]⟩) (some ⟨b!"acroform", [(b!"b", .int 2), (b!"c", .int 2)]⟩) =
    some ⟨[(b!"b", .int 2)], [(b!"a", .int 1)], [(b!"c", .int 1, .int 2)], none⟩ := by decide +kernel

/-- Word comparison with an addition, a removal and a modification. -/
example : compareText { gran := .word, ignoreCase := true } [⟨b!"A b", 0, 0, b!"F", 9, []⟩, ⟨b!"q", 50, 0, b!"F", 9, []⟩] [⟨b!"a c", 1, 0, b!"F", 9, []⟩, ⟨b!"x", 90, 0, b!"F", 9, []⟩] =
    some ⟨[⟨b!"x", 90, 0, b!"F", 9, []⟩], [⟨b!"q", 50, 0, b!"F", 9, []⟩], [(⟨b!"A b", 0, 0, b!"F", 9, []⟩, ⟨b!"a c", 1, 0, b!"F", 9, []⟩)]⟩ := by decide +kernel

/-- Images of which one is moved and one is added. -/
example : compareImages (fun _ => some ⟨1, 1, b!"jpeg", b!"RGB", [1]⟩) (fun _ => some ⟨1, 1, b!"jpeg", b!"RGB", [1]⟩) [⟨b!"i", 0, 0, []⟩] [⟨b!"i", 9, 9, []⟩, ⟨b!"i", 20, 9, []⟩] =
    some ⟨[⟨b!"i", 20, 9, []⟩], [], [], [(⟨b!"i", 0, 0, []⟩, ⟨b!"i", 9, 9, []⟩)]⟩ := by decide +kernel

end Pdfer.Props
