import Verif.Proofs.CompareDoc

/-! C41–C46, C57: comparison of documents. -/

namespace Pdfer.Props

open Pdfer.Go Pdfer.Compare

/-- An element at the origin in a given font. -/
def sample (t : Bytes) (x : Rat) : Elem := ⟨t, x, 0, b!"F1", 12, []⟩

/-! ### C41 -/

/-- C41: the matches found between two lists of elements are a common subsequence, and none is longer – whatever the
notion of equality. -/
theorem C41_longest_common_subsequence {α : Type} (eq : α → α → Bool) (t1 t2 : List α) :
    IsCommonSubsequence eq t1 t2 (lcsMatches eq t1 t2) ∧
      ∀ ms, IsCommonSubsequence eq t1 t2 ms → ms.length ≤ (lcsMatches eq t1 t2).length :=
  ⟨lcs_matching eq t1 t2, lcs_longest eq t1 t2⟩

/-- C41, in terms of text elements: matched elements have the same text under the options, and the same font. -/
theorem C41_elements (o : Opts) (t1 t2 : List Elem) : ∀ p ∈ lcsMatches (textEqual o) t1 t2,
    ∃ a b, t1[p.1]? = some a ∧ t2[p.2]? = some b ∧ view o a.text = view o b.text ∧ SameFont a b := by
  intro p hp
  obtain ⟨a, b, ha, hb, h⟩ := (lcs_matching (textEqual o) t1 t2).paired p hp
  exact ⟨a, b, ha, hb, ((textEqual_iff o a b).mp h).1, ((textEqual_iff o a b).mp h).2⟩

/-- Equal lists are matched completely. -/
theorem C41_equal_lists {α : Type} (eq : α → α → Bool) (h : ∀ a, eq a a = true) (t : List α) :
    (lcsMatches eq t t).length = t.length := by
  have h1 : IsCommonSubsequence eq t t ((List.range t.length).map fun i => (i, i)) := by
    refine ⟨?_, ?_⟩
    · rw [List.pairwise_map]
      have := List.pairwise_lt_range (n := t.length)
      exact this.imp (fun h => ⟨h, h⟩)
    · intro p hp
      rw [List.mem_map] at hp
      obtain ⟨i, hi, rfl⟩ := hp
      have hi : i < t.length := by simpa using hi
      exact ⟨_, _, List.getElem?_eq_getElem hi, List.getElem?_eq_getElem hi, h _⟩
  have h2 := lcs_longest eq t t _ h1
  have h3 := (lcs_matching eq t t)
  have h4 : (lcsMatches eq t t).length ≤ t.length := by
    have hn : ((lcsMatches eq t t).map (·.1)).Nodup := by
      unfold List.Nodup
      rw [List.pairwise_map]
      exact h3.increasing.imp (fun h => by omega)
    have hsub : ∀ i ∈ (lcsMatches eq t t).map (·.1), i ∈ List.range t.length := by
      intro i hi
      rw [List.mem_map] at hi
      obtain ⟨p, hp, rfl⟩ := hi
      obtain ⟨a, b, ha, -⟩ := h3.paired p hp
      simpa using (List.getElem?_eq_some_iff.mp ha).1
    have := (range_perm t.length _ hn (fun i hi => by simpa using hsub i hi)
      (fun i => !((lcsMatches eq t t).map (·.1)).contains i) (by simp)).length_eq
    simp at this
    omega
  simp at h2
  omega

example : lcsMatches (fun a b => a == b) b!"abcbdab" b!"bdcaba" = [(3, 0), (4, 1), (5, 3), (6, 4)] := by decide +kernel

/-! ### C42 -/

/-- C42: the element-level diff explains both texts: every element of the first is kept, modified or removed and every
element of the second is kept, modified or added, each exactly once; kept elements are equal under the options, and a
modification is another text at the same place or the same text at another place. -/
theorem C42_diff_explains_both (o : Opts) (t1 t2 : List Elem) :
    Accounts (fun a b => Near o.textTol a b ∧ view o a.text = view o b.text ∧ SameFont a b) (Changed o) t1 t2
      (myersDiff o t1 t2).removed (myersDiff o t1 t2).added (myersDiff o t1 t2).modified := by
  refine (myersDiff_accounts o t1 t2).mono (fun a b h => h) ?_
  rintro a b (h | h)
  · exact Or.inl ⟨h.1, fun he => h.2 (by rw [he])⟩
  · exact Or.inr h

/-- C42: removed and added elements keep their order. -/
theorem C42_order (o : Opts) (t1 t2 : List Elem) :
    (myersDiff o t1 t2).removed.Sublist t1 ∧ (myersDiff o t1 t2).added.Sublist t2 := by
  have key : ∀ (t : List Elem) (p : Nat → Bool), (((List.range t.length).filter p).map (el t)).Sublist t := by
    intro t p
    have := (List.filter_sublist (p := p) (l := List.range t.length)).map (el t)
    rwa [show (List.range t.length).map (el t) = t from map_getD_range t default] at this
  exact ⟨key t1 _, key t2 _⟩

/-- C42: nothing that could have been matched by text is left on both sides: the elements removed and those added have no
common element (same text under the options, same font). -/
theorem C42_nothing_common_left (o : Opts) (t1 t2 : List Elem) :
    ∀ a ∈ (myersDiff o t1 t2).removed, ∀ b ∈ (myersDiff o t1 t2).added,
      Near o.textTol a b → view o a.text = view o b.text → ¬ SameFont a b := by
  intro a ha b hb hn hv hf
  have key : ∀ (ps : Pairs Bool) (qs : Pairs Bool), (∀ p ∈ phase t1.length t2.length
      (fun _ i j => elementsEqual o (el t1 i) (el t2 j)) (fun _ _ => false) [], p ∈ ps) →
      a ∈ (free1 t1.length ps).map (el t1) → b ∈ (free2 t2.length ps).map (el t2) → False := by
    intro ps _ hs ha hb
    rw [List.mem_map] at ha hb
    obtain ⟨i, hi, rfl⟩ := ha
    obtain ⟨j, hj, rfl⟩ := hb
    simp only [free1, free2, List.mem_filter, List.mem_range, Bool.not_eq_true'] at hi hj
    have := phase_maximal t1.length t2.length (fun i j => elementsEqual o (el t1 i) (el t2 j)) (fun _ _ => false) [] i j
      hi.1 hj.1 (used1_mono hs hi.2) (used2_mono hs hj.2)
    rw [← Bool.not_eq_true, elementsEqual_iff] at this
    exact this ⟨hv, hn, hf⟩
  unfold myersDiff toDiff at ha hb
  simp only [] at ha hb
  refine key _ [] ?_ ha hb
  intro p hp
  rw [List.mem_append]
  exact Or.inl (foldl_phaseStep_subset _ _ _ _ _ p hp)

/-- Non-trivial: two modified and a removed element; and a moved one. -/
example : myersDiff {} [sample b!"a" 0, sample b!"b" 100, sample b!"c" 200] [sample b!"b" 0, sample b!"x" 200] =
    ⟨[], [sample b!"b" 100], [(sample b!"a" 0, sample b!"b" 0), (sample b!"c" 200, sample b!"x" 200)]⟩ := by
  decide +kernel

example : myersDiff {} [sample b!"a" 0, sample b!"b" 100] [sample b!"c" 300, sample b!"b" 200] =
    ⟨[sample b!"c" 300], [sample b!"a" 0], [(sample b!"b" 100, sample b!"b" 200)]⟩ := by decide +kernel

/-! ### C43 -/

/-- C43: the differences reported between two texts (nothing reported = no difference) account for every element of both,
exactly once: unreported elements are unchanged in the sense of the options, modifications are changes. -/
theorem C43_accounts_for_everything (o : Opts) (t1 t2 : List Elem) :
    let d := (compareText o t1 t2).getD ⟨[], [], []⟩
    Accounts (Unchanged o) (Changed o) t1 t2 d.removed d.added d.modified := by
  intro d
  have h := textDiff_accounts o t1 t2
  have hd : d = textDiff o t1 t2 := by
    show (compareText o t1 t2).getD ⟨[], [], []⟩ = _
    rw [compareText_eq]
    split
    · rename_i he
      cases hx : textDiff o t1 t2 with
      | mk a r m => rw [hx] at he; obtain ⟨rfl, rfl, rfl⟩ := he; rfl
    · rfl
  rw [hd]; exact h

/-- C43: counts. -/
theorem C43_counts (o : Opts) (t1 t2 : List Elem) :
    let d := (compareText o t1 t2).getD ⟨[], [], []⟩
    t1.length + d.added.length = t2.length + d.removed.length := by
  intro d
  obtain ⟨kept, -, -, h3, h4⟩ := C43_accounts_for_everything o t1 t2
  have h3 := h3.length_eq
  have h4 := h4.length_eq
  simp at h3 h4
  show t1.length + ((compareText o t1 t2).getD ⟨[], [], []⟩).added.length =
    t2.length + ((compareText o t1 t2).getD ⟨[], [], []⟩).removed.length
  omega

/-- Non-trivial: three texts, one kept, one modified, one removed, one added. -/
example : compareText {} [sample b!"a" 0, sample b!"b" 100, sample b!"c" 200]
    [sample b!"a" 1, sample b!"x" 100, sample b!"d" 300] =
    some ⟨[sample b!"d" 300], [sample b!"c" 200], [(sample b!"b" 100, sample b!"x" 100)]⟩ := by decide +kernel

/-! ### C44 -/

/-- C44: a text compared with itself shows no difference, if the tolerance is positive. -/
theorem C44_text_partial (o : Opts) (t : List Elem) (h : 0 < o.textTol) : compareText o t t = none := compareText_self o t h

/-- C44 is violated for tolerance 0 (or a negative one): every non-empty text differs from itself, unless the comparison
is relaxed. -/
theorem C44_tolerance_zero_violated (o : Opts) (t : List Elem) (h : o.textTol ≤ 0) (hs : o.sens ≠ .relaxed) (ht : t ≠ []) :
    compareText o t t ≠ none := compareText_self_tol0 o t h hs ht

example : compareText { textTol := 0 } [sample b!"a" 0] [sample b!"a" 0] =
    some ⟨[], [], [(sample b!"a" 0, sample b!"a" 0)]⟩ := by decide +kernel

/-- C44: graphics and annotations compared with themselves show no difference exactly when no two have the same kind and
box (as printed with one decimal). -/
theorem C44_keyed_iff (fmt1 : Rat → Bytes) (g : List Shape) :
    compareKeyed (shapeKey fmt1) g g = none ↔ (g.map (shapeKey fmt1)).Nodup := by
  rw [compareKeyed_none]; simp

/-- C44 is violated by two identical graphics on a page: the page differs from itself. -/
theorem C44_duplicate_graphics_violated (fmt1 : Rat → Bytes) (g : Shape) :
    compareKeyed (shapeKey fmt1) [g, g] [g, g] ≠ none := by
  rw [Ne, C44_keyed_iff]; simp

/-- C44: images compared with themselves show no difference. -/
theorem C44_images (data : Bytes → Option Img) (t : List ImgRef) : compareImages data data t t = none :=
  compareImages_self data t

/-- C44: metadata compared with themselves show no difference. -/
theorem C44_metadata (o : Opts) (m : Option Meta) : compareMetadata o m m = none := compareMetadata_self o m

/-- C44: a form compared with itself shows no difference (a Go map has each key once). -/
theorem C44_form (f : Option Form) (h : ∀ a, f = some a → a.values.keys.Nodup) : compareForms f f = none :=
  compareForms_self f h

/-- What makes a page comparable with itself. -/
def SelfComparable (fmt1 : Rat → Bytes) (p : Page) : Prop :=
  (p.graphics.map (shapeKey fmt1)).Nodup ∧ (p.annotations.map (shapeKey fmt1)).Nodup

/-- C44: a page compared with itself shows no difference, exactly when no graphics or annotations coincide (positive
tolerance). -/
theorem C44_page_iff (fmt1 : Rat → Bytes) (o : Opts) (p : Page) (h : 0 < o.textTol) :
    comparePage fmt1 o p p = [] ↔ SelfComparable fmt1 p := by
  unfold comparePage SelfComparable
  rw [compareText_self o _ h, compareImages_self]
  cases hg : compareKeyed (shapeKey fmt1) p.graphics p.graphics <;>
    cases ha : compareKeyed (shapeKey fmt1) p.annotations p.annotations
  · have h1 := (C44_keyed_iff fmt1 p.graphics).mp hg
    have h2 := (C44_keyed_iff fmt1 p.annotations).mp ha
    simp [h1, h2]
  · have h2 : ¬ (p.annotations.map (shapeKey fmt1)).Nodup := by rw [← C44_keyed_iff, ha]; simp
    simp [h2]
  · have h1 : ¬ (p.graphics.map (shapeKey fmt1)).Nodup := by rw [← C44_keyed_iff, hg]; simp
    simp [h1]
  · have h1 : ¬ (p.graphics.map (shapeKey fmt1)).Nodup := by rw [← C44_keyed_iff, hg]; simp
    simp [h1]

theorem comparePages_self (fmt1 : Rat → Bytes) (o : Opts) (h : 0 < o.textTol) (ps : List Page)
    (hp : ∀ p ∈ ps, SelfComparable fmt1 p) : ∀ k, comparePages fmt1 o k ps ps = [] := by
  induction ps with
  | nil => intro k; simp [comparePages]
  | cons p ps ih =>
    intro k
    unfold comparePages
    simp only []
    rw [if_pos ((C44_page_iff fmt1 o p h).mpr (hp p (by simp)))]
    exact ih (fun p hp' => hp p (by simp [hp'])) (k + 1)

theorem comparePages_self_conv (fmt1 : Rat → Bytes) (o : Opts) (h : 0 < o.textTol) (ps : List Page) :
    ∀ k, comparePages fmt1 o k ps ps = [] → ∀ p ∈ ps, SelfComparable fmt1 p := by
  induction ps with
  | nil => intro k _ p hp; simp at hp
  | cons q ps ih =>
    intro k hk p hp
    unfold comparePages at hk
    simp only [] at hk
    split at hk
    · rename_i he
      rcases List.mem_cons.mp hp with rfl | hp
      · exact (C44_page_iff fmt1 o p h).mp he
      · exact ih _ hk p hp
    · simp at hk

/-- C44 for whole documents, with a positive tolerance: a document is found identical to itself exactly when no page
has two graphics, or two annotations, of the same kind and box. -/
theorem C44_document_iff (fmt1 : Rat → Bytes) (o : Opts) (h : 0 < o.textTol) (d : Doc)
    (hf : ∀ a, d.form = some a → a.values.keys.Nodup) :
    identical fmt1 o d d = true ↔ ∀ p ∈ d.pages, SelfComparable fmt1 p := by
  unfold identical totalDifferences
  rw [compareMetadata_self, compareForms_self d.form hf, beq_iff_eq]
  have e : ∀ s : Nat, ((if (none : Option (List Bytes)).isSome = true then 1 else 0) +
      (if d.pages.length ≠ d.pages.length then 1 else 0) + s + (if d.bookmarks ≠ d.bookmarks then 1 else 0) + 0) = s := by
    intro s; simp
  constructor
  · intro hz
    have hz' := (e _).symm.trans hz
    have hnil : comparePages fmt1 o 1 d.pages d.pages = [] := by
      have hne : ∀ (ps qs : List Page) (k : Nat), ∀ x ∈ comparePages fmt1 o k ps qs, x.2.length ≠ 0 := by
        intro ps
        induction ps with
        | nil =>
          intro qs
          induction qs with
          | nil => intro k x hx; simp [comparePages] at hx
          | cons q qs ih =>
            intro k x hx
            simp only [comparePages, List.mem_cons] at hx
            rcases hx with rfl | hx
            · simp
            · exact ih _ x hx
        | cons p ps ih =>
          intro qs k x hx
          cases qs with
          | nil =>
            simp only [comparePages, List.mem_cons] at hx
            rcases hx with rfl | hx
            · simp
            · exact ih [] _ x hx
          | cons q qs =>
            unfold comparePages at hx
            simp only [] at hx
            split at hx
            · exact ih qs _ x hx
            · rename_i hd
              rcases List.mem_cons.mp hx with rfl | hx
              · simpa using hd
              · exact ih qs _ x hx
      cases hc : comparePages fmt1 o 1 d.pages d.pages with
      | nil => rfl
      | cons x l =>
        have := hne d.pages d.pages 1 x (by rw [hc]; simp)
        rw [hc] at hz'
        simp only [List.map_cons, List.sum_cons] at hz'
        omega
    exact comparePages_self_conv fmt1 o h d.pages 1 hnil
  · intro hp
    rw [comparePages_self fmt1 o h d.pages hp]
    simp

/-- A page with a text, a graphic and an annotation. -/
def samplePage : Page :=
  ⟨612, 792, 0, [sample b!"a" 0, sample b!"b" 50], [⟨b!"rect", some (0, 0, 1, 1), []⟩], [⟨b!"/I", 0, 0, []⟩],
    [⟨b!"Link", some (0, 0, 1, 1), []⟩], fun _ => some ⟨1, 1, b!"jpeg", b!"rgb", b!"d"⟩⟩

example : SelfComparable (fun _ => b!"0.0") samplePage := by unfold SelfComparable; decide +kernel

/-! ### C45 -/

/-- Two values that are both nil, or both not nil and printed alike. -/
def PrintedAlike (v w : Value) : Prop := (v = .nil ∧ w = .nil) ∨ (v ≠ .nil ∧ w ≠ .nil ∧ showValue v = showValue w)

theorem valuesEqual_iff (v w : Value) : valuesEqual v w = true ↔ PrintedAlike v w := by
  unfold valuesEqual PrintedAlike
  by_cases h1 : v = .nil <;> by_cases h2 : w = .nil <;> simp [h1, h2]

/-- C45: of two forms of the same type, exactly the fields only in the second are reported as added, exactly those only
in the first as removed, and exactly those in both with values that are not printed alike as modified. -/
theorem C45_exact_partial (a b : Form) (ht : a.typ = b.typ) (ha : a.values.keys.Nodup) (hb : b.values.keys.Nodup) :
    let d := (compareForms (some a) (some b)).getD ⟨[], [], [], none⟩
    (∀ k v, (k, v) ∈ d.added ↔ b.values.get k = some v ∧ a.values.get k = none) ∧
    (∀ k v, (k, v) ∈ d.removed ↔ a.values.get k = some v ∧ b.values.get k = none) ∧
    (∀ k v w, (k, v, w) ∈ d.modified ↔ a.values.get k = some v ∧ b.values.get k = some w ∧ ¬ PrintedAlike v w) := by
  have h := compareForms_same a b ht ha hb
  cases hc : compareForms (some a) (some b) with
  | none =>
    rw [hc] at h
    refine ⟨h.1, h.2.1, fun k v w => ?_⟩
    have := h.2.2 k v w
    rw [← Bool.not_eq_true, valuesEqual_iff] at this
    exact this
  | some d =>
    rw [hc] at h
    refine ⟨h.1, h.2.1, fun k v w => ?_⟩
    have := h.2.2 k v w
    rw [← Bool.not_eq_true, valuesEqual_iff] at this
    exact this

/-- Values of the same kind, other than lists. -/
def SameKind : Value → Value → Prop
  | .nil, _ => True
  | _, .nil => True
  | .str _, .str _ => True
  | .bool _, .bool _ => True
  | .int _, .int _ => True
  | _, _ => False

theorem printedAlike_sameKind (v w : Value) (h : SameKind v w) : PrintedAlike v w ↔ v = w := by
  unfold PrintedAlike
  constructor
  · rintro (⟨rfl, rfl⟩ | ⟨h1, h2, h3⟩)
    · rfl
    · cases v <;> cases w <;> simp_all [SameKind, showValue]
      · rename_i x y; revert h3; cases x <;> cases y <;> simp
      · exact itoa_inj _ _ h3
  · rintro rfl
    by_cases hv : v = .nil
    · exact Or.inl ⟨hv, hv⟩
    · exact Or.inr ⟨hv, hv, rfl⟩

/-- C45: fields whose values are of the same kind (text, yes/no, number) in both forms are reported as modified exactly
when the values differ. -/
theorem C45_modified_exact (a b : Form) (ht : a.typ = b.typ) (ha : a.values.keys.Nodup) (hb : b.values.keys.Nodup)
    (k : Bytes) (v w : Value) (hv : a.values.get k = some v) (hw : b.values.get k = some w) (hs : SameKind v w) :
    (k, v, w) ∈ ((compareForms (some a) (some b)).getD ⟨[], [], [], none⟩).modified ↔ v ≠ w := by
  rw [(C45_exact_partial a b ht ha hb).2.2, printedAlike_sameKind v w hs]
  simp [hv, hw]

/-- C45 is violated for values of different kinds that print alike: the text `true` against the value true, and the list
of one item `a b` against the list of the items `a` and `b`, are not reported. -/
theorem C45_printed_alike_violated :
    compareForms (some ⟨b!"acroform", [(b!"f", .str b!"true")]⟩) (some ⟨b!"acroform", [(b!"f", .bool true)]⟩) = none ∧
    compareForms (some ⟨b!"acroform", [(b!"f", .strs [b!"a b"])]⟩) (some ⟨b!"acroform", [(b!"f", .strs [b!"a", b!"b"])]⟩)
      = none := by decide +kernel

/-- C45: forms of different types, and a form against none: every field is reported. -/
theorem C45_other_types (a b : Form) : compareForms none (some b) = some ⟨b.values, [], [], none⟩ ∧
    compareForms (some a) none = some ⟨[], a.values, [], none⟩ ∧
    (a.typ ≠ b.typ → compareForms (some a) (some b) = some ⟨b.values, a.values, [], some (a.typ, b.typ)⟩) := by
  refine ⟨rfl, rfl, fun h => ?_⟩
  simp [compareForms, h]

/-- C45 is violated at the level of documents: a form without fields against no form at all counts as identical. -/
theorem C45_empty_form_violated (fmt1 : Rat → Bytes) (o : Opts) (typ : Bytes) :
    identical fmt1 o ⟨none, [], [], none⟩ ⟨none, [], [], some ⟨typ, []⟩⟩ = true := by
  unfold identical totalDifferences
  simp [compareMetadata, comparePages, compareForms]

example : compareForms (some ⟨b!"acroform", [(b!"f", .str b!"x"), (b!"g", .int 1), (b!"h", .nil)]⟩)
    (some ⟨b!"acroform", [(b!"g", .int 2), (b!"h", .nil), (b!"i", .bool true)]⟩) =
    some ⟨[(b!"i", .bool true)], [(b!"f", .str b!"x")], [(b!"g", .int 1, .int 2)], none⟩ := by decide +kernel

/-! ### C46 -/

/-- C46: the change ratio is between 0 and 1. -/
theorem C46_ratio_range (a b : Bytes) : 0 ≤ changeRatio a b ∧ changeRatio a b ≤ 1 := by
  unfold changeRatio
  split
  · exact ⟨by grind, by grind⟩
  · rename_i h
    simp only []
    have hz := zip_diff_le a b
    have hm : 0 < max a.length b.length := by omega
    have hle : ((a.zip b).filter fun p => p.1 != p.2).length + (max a.length b.length - min a.length b.length) ≤
        max a.length b.length := by omega
    generalize ((a.zip b).filter fun p => p.1 != p.2).length + (max a.length b.length - min a.length b.length) = d at hle
    generalize max a.length b.length = m at hle hm
    have hm' : (0 : Rat) < (m : Rat) := by exact_mod_cast hm
    have hd : (0 : Rat) ≤ (d : Rat) := by exact_mod_cast Nat.zero_le d
    have hdm : (d : Rat) ≤ (m : Rat) := by exact_mod_cast hle
    rw [Rat.div_def]
    have hi : (m : Rat) * (m : Rat)⁻¹ = 1 := Rat.mul_inv_cancel _ (by grind)
    have hip : 0 ≤ (m : Rat)⁻¹ := Rat.le_of_lt (Rat.inv_pos.mpr hm')
    exact ⟨Rat.mul_nonneg hd hip, by rw [← hi]; exact Rat.mul_le_mul_of_nonneg_right hdm hip⟩

/-- C46: the change ratio is 0 exactly for equal texts. -/
theorem C46_ratio_zero_iff (a b : Bytes) : changeRatio a b = 0 ↔ a = b := by
  unfold changeRatio
  split
  · rename_i h
    rw [List.eq_nil_of_length_eq_zero h.1, List.eq_nil_of_length_eq_zero h.2]; simp
  · rename_i h
    simp only []
    have hm : 0 < max a.length b.length := by omega
    have key : ((a.zip b).filter fun p => p.1 != p.2).length + (max a.length b.length - min a.length b.length) = 0 ↔
        a = b := by
      constructor
      · intro hz
        exact (zip_diff_zero a b (by omega)).mp (by omega)
      · rintro rfl
        have := (zip_diff_zero a a rfl).mpr rfl
        omega
    rw [← key]
    generalize ((a.zip b).filter fun p => p.1 != p.2).length + (max a.length b.length - min a.length b.length) = d
    generalize max a.length b.length = m at hm
    have hm' : (m : Rat) ≠ 0 := by
      have : (0 : Rat) < (m : Rat) := by exact_mod_cast hm
      grind
    constructor
    · intro h0
      rw [Rat.div_def] at h0
      have : (d : Rat) = 0 := by
        have := congrArg (· * (m : Rat)) h0
        simp only [Rat.zero_mul] at this
        rw [Rat.mul_assoc, Rat.inv_mul_cancel _ hm', Rat.mul_one] at this
        exact this
      exact_mod_cast this
    · rintro rfl
      simp [Rat.div_def]

/-- C46: normalising is looking at a text as the options say, and doing it twice is the same as once. -/
theorem C46_normalise (o : Opts) (t : Bytes) :
    normalize o t = view o t ∧ normalize o (normalize o t) = normalize o t := by
  refine ⟨normalize_view o t, ?_⟩
  unfold normalize
  have hl : ∀ t : Bytes, lowerAscii (lowerAscii t) = lowerAscii t := by
    intro t
    unfold lowerAscii
    rw [List.map_map]
    congr 1
    funext c
    exact forall_byte (p := fun c => ((fun c : UInt8 => if c ≥ 65 ∧ c ≤ 90 then c + 32 else c) ∘
      fun c => if c ≥ 65 ∧ c ≤ 90 then c + 32 else c) c = if c ≥ 65 ∧ c ≤ 90 then c + 32 else c) (by decide +kernel) c
  have hd : ∀ t : Bytes, dropSpace (dropSpace t) = dropSpace t := by
    intro t; unfold dropSpace; rw [List.filter_filter]; simp
  have hc : ∀ t : Bytes, lowerAscii (dropSpace t) = dropSpace (lowerAscii t) := by
    intro t
    unfold lowerAscii dropSpace
    rw [List.filter_map]
    congr 2
    funext c
    exact (lower_space c).symm
  cases o.ignoreCase <;> cases o.ignoreWhitespace <;> simp [hl, hd, hc]

/-- C46: the bytes words are made of are the ASCII letters and digits, and no others. -/
theorem C46_word_bytes (c : UInt8) :
    isWordByte c = true ↔ c ∈ b!"abcdefghijklmnopqrstuvwxyzABCDEFGHIJKLMNOPQRSTUVWXYZ0123456789" := by
  have h := forall_byte (p := fun c => isWordByte c ==
    b!"abcdefghijklmnopqrstuvwxyzABCDEFGHIJKLMNOPQRSTUVWXYZ0123456789".contains c) (by decide +kernel) c
  rw [beq_iff_eq] at h
  rw [h, List.contains_iff_mem]

/-- C46: words are the maximal runs of letters and digits: a run is one word, anything else separates (these laws
determine the words of every text). -/
theorem C46_words : splitWords [] = [] ∧
    (∀ w, w ≠ [] → (∀ c ∈ w, isWordByte c = true) → splitWords w = [w]) ∧
    (∀ a s b, isWordByte s = false → splitWords (a ++ s :: b) = splitWords a ++ splitWords b) := by
  refine ⟨rfl, ?_, ?_⟩
  · intro w hw hc
    have := splitWordsAux_word w hc [] []
    rw [List.append_nil] at this
    unfold splitWords
    rw [this]
    simp [splitWordsAux, hw]
  · intro a s b hs
    exact splitWordsAux_sep a s hs b []

example : splitWords b!"Hello, big  world!" = [b!"Hello", b!"big", b!"world"] := by decide +kernel
example : changeRatio b!"abcd" b!"abxde" = 2 / 5 := by decide +kernel

/-! ### C57 -/

theorem identical_parts (fmt1 : Rat → Bytes) (o : Opts) (d1 d2 : Doc) (h : identical fmt1 o d1 d2 = true) :
    compareMetadata o d1.info d2.info = none ∧ d1.pages.length = d2.pages.length ∧
    ((comparePages fmt1 o 1 d1.pages d2.pages).map (·.2.length)).sum = 0 ∧ d1.bookmarks = d2.bookmarks := by
  unfold identical totalDifferences at h
  rw [beq_iff_eq] at h
  refine ⟨?_, ?_, by omega, ?_⟩
  · apply Classical.byContradiction
    intro hc
    have : (compareMetadata o d1.info d2.info).isSome = true := by rw [← Option.ne_none_iff_isSome]; exact hc
    rw [if_pos this] at h; omega
  · apply Classical.byContradiction
    intro hc
    rw [if_pos (show d1.pages.length ≠ d2.pages.length from hc)] at h; omega
  · apply Classical.byContradiction
    intro hc
    rw [if_pos (show d1.bookmarks ≠ d2.bookmarks from hc)] at h; omega

theorem pages_identical (fmt1 : Rat → Bytes) (o : Opts) (ps : List Page) : ∀ (qs : List Page) (k : Nat),
    ((comparePages fmt1 o k ps qs).map (·.2.length)).sum = 0 → ∀ (i : Nat) p q, ps[i]? = some p → qs[i]? = some q →
    comparePage fmt1 o p q = [] := by
  induction ps with
  | nil => intro qs k _ i p q hp; simp at hp
  | cons p' ps ih =>
    intro qs k hk i p q hp hq
    cases qs with
    | nil => simp at hq
    | cons q' qs =>
      unfold comparePages at hk
      simp only [] at hk
      split at hk
      · rename_i hd
        cases i with
        | zero => simp at hp hq; subst hp hq; exact hd
        | succ i => exact ih qs (k + 1) hk i p q (by simpa using hp) (by simpa using hq)
      · rename_i hd
        simp only [List.map_cons, List.sum_cons] at hk
        have : (comparePage fmt1 o p' q').length ≠ 0 := by simpa using hd
        omega

/-- C57: documents found identical have the same number of pages, the same bookmarks, and page by page the same size and
rotation, texts that are the same up to order and unchanged in the sense of the options, as many images, and graphics
and annotations of the same kinds and boxes; unless metadata are ignored, title, author, subject, keywords, creator,
version and page count are the same. -/
theorem C57_identical_means_partial (fmt1 : Rat → Bytes) (o : Opts) (d1 d2 : Doc) (h : identical fmt1 o d1 d2 = true) :
    d1.pages.length = d2.pages.length ∧ d1.bookmarks = d2.bookmarks ∧
    (∀ (i : Nat) p q, d1.pages[i]? = some p → d2.pages[i]? = some q →
      p.width = q.width ∧ p.height = q.height ∧ p.rotation = q.rotation ∧
      (∃ kept : List (Elem × Elem), (∀ e ∈ kept, Unchanged o e.1 e.2) ∧ p.text.Perm (kept.map (·.1)) ∧
        q.text.Perm (kept.map (·.2))) ∧
      (∀ k, k ∈ p.graphics.map (shapeKey fmt1) ↔ k ∈ q.graphics.map (shapeKey fmt1)) ∧
      (∀ k, k ∈ p.annotations.map (shapeKey fmt1) ↔ k ∈ q.annotations.map (shapeKey fmt1)) ∧
      p.images.length = q.images.length) ∧
    (o.ignoreMetadata = false → ∀ a b, d1.info = some a → d2.info = some b →
      a.title = b.title ∧ a.author = b.author ∧ a.subject = b.subject ∧ a.keywords = b.keywords ∧
      a.creator = b.creator ∧ a.version = b.version ∧ a.pageCount = b.pageCount ∧ a.encrypted = b.encrypted ∧
      (o.ignoreProducer = false → a.producer = b.producer) ∧
      (o.ignoreDates = false → a.creationDate = b.creationDate ∧ a.modDate = b.modDate)) := by
  obtain ⟨h1, h2, h3, h4⟩ := identical_parts fmt1 o d1 d2 h
  refine ⟨h2, h4, ?_, ?_⟩
  · intro i p q hp hq
    have hd := pages_identical fmt1 o d1.pages d2.pages 1 h3 i p q hp hq
    unfold comparePage at hd
    simp only [List.append_eq_nil_iff] at hd
    obtain ⟨⟨⟨⟨⟨e1, e2⟩, e3⟩, e4⟩, e5⟩, e6⟩ := hd
    have e1' : p.width = q.width ∧ p.height = q.height := by
      apply Classical.byContradiction
      intro hc
      rw [if_pos (by
        by_cases hw : p.width = q.width
        · exact Or.inr fun hh => hc ⟨hw, hh⟩
        · exact Or.inl hw)] at e1
      simp at e1
    have e2' : p.rotation = q.rotation := by
      apply Classical.byContradiction
      intro hc
      rw [if_pos hc] at e2; simp at e2
    refine ⟨e1'.1, e1'.2, e2', ?_, ?_, ?_, ?_⟩
    · cases ht : compareText o p.text q.text with
      | none => exact compareText_none o _ _ ht
      | some d => rw [ht] at e3; simp at e3
    · cases ht : compareKeyed (shapeKey fmt1) p.graphics q.graphics with
      | none => exact ((compareKeyed_none _ _ _).mp ht).2
      | some d => rw [ht] at e4; simp at e4
    · cases ht : compareKeyed (shapeKey fmt1) p.annotations q.annotations with
      | none => exact ((compareKeyed_none _ _ _).mp ht).2
      | some d => rw [ht] at e6; simp at e6
    · apply Classical.byContradiction
      intro hc
      cases ht : compareImages p.data q.data p.images q.images with
      | none => rw [ht] at e5; simp [hc] at e5
      | some d => rw [ht] at e5; simp at e5
  · intro hi a b ha hb
    rw [ha, hb] at h1
    unfold compareMetadata at h1
    simp only [hi, Bool.false_eq_true, if_false] at h1
    have h1' := h1
    simp at h1'
    grind

/-- C57: documents found identical that both have a form have forms of the same type with the same fields and, field by field,
values that are printed alike. -/
theorem C57_identical_forms (fmt1 : Rat → Bytes) (o : Opts) (d1 d2 : Doc) (h : identical fmt1 o d1 d2 = true) (a b : Form)
    (ha : d1.form = some a) (hb : d2.form = some b) (hna : a.values.keys.Nodup) (hnb : b.values.keys.Nodup) :
    a.typ = b.typ ∧ ∀ k, (a.values.get k = none ∧ b.values.get k = none) ∨
      ∃ v w, a.values.get k = some v ∧ b.values.get k = some w ∧ PrintedAlike v w := by
  unfold identical totalDifferences at h
  rw [beq_iff_eq, ha, hb] at h
  have hf : ∀ f, compareForms (some a) (some b) = some f → f.added = [] ∧ f.removed = [] ∧ f.modified = [] ∧ f.formType = none := by
    intro f hf
    rw [hf] at h
    apply Classical.byContradiction
    intro hc
    simp only [] at h
    rw [if_pos (c := f.added ≠ [] ∨ f.removed ≠ [] ∨ f.modified ≠ [] ∨ f.formType ≠ none) (by
      apply Classical.byContradiction
      intro hn
      apply hc
      simp only [ne_eq, not_or, not_not] at hn
      exact hn)] at h
    omega
  have ht : a.typ = b.typ := by
    apply Classical.byContradiction
    intro hc
    have := hf ⟨b.values, a.values, [], some (a.typ, b.typ)⟩ (by unfold compareForms; simp [hc])
    simp at this
  refine ⟨ht, ?_⟩
  obtain ⟨x1, x2, x3⟩ := C45_exact_partial a b ht hna hnb
  have hall : ((compareForms (some a) (some b)).getD ⟨[], [], [], none⟩).added = [] ∧
      ((compareForms (some a) (some b)).getD ⟨[], [], [], none⟩).removed = [] ∧
      ((compareForms (some a) (some b)).getD ⟨[], [], [], none⟩).modified = [] := by
    cases hc : compareForms (some a) (some b) with
    | none => simp
    | some f => have := hf f hc; simp [this]
  rw [hall.1] at x1
  rw [hall.2.1] at x2
  rw [hall.2.2] at x3
  intro k
  cases hka : a.values.get k with
  | none =>
    cases hkb : b.values.get k with
    | none => exact .inl ⟨rfl, rfl⟩
    | some w => exact absurd ((x1 k w).2 ⟨hkb, hka⟩) (by simp)
  | some v =>
    cases hkb : b.values.get k with
    | none => exact absurd ((x2 k v).2 ⟨hka, hkb⟩) (by simp)
    | some w =>
      refine .inr ⟨v, w, rfl, rfl, ?_⟩
      apply Classical.byContradiction
      intro hn
      exact absurd ((x3 k v w).2 ⟨hka, hkb, hn⟩) (by simp)

/-- C57: the page differences are exactly these: for every position at which both documents have a page, what is different
between the two pages, if anything; for every position past the end of the second document, a removed page; past the end of
the first, an added page – each under its page number counted from 1, in ascending order. -/
theorem C57_page_numbers (fmt1 : Rat → Bytes) (o : Opts) (ps qs : List Page) (k : Nat) (d : List PageDiff) :
    (k, d) ∈ comparePages fmt1 o 1 ps qs ↔ 1 ≤ k ∧
      ((∃ p q, ps[k - 1]? = some p ∧ qs[k - 1]? = some q ∧ d = comparePage fmt1 o p q ∧ d ≠ []) ∨
       (∃ p, ps[k - 1]? = some p ∧ qs[k - 1]? = none ∧ d = [.removed]) ∨
       (∃ q, ps[k - 1]? = none ∧ qs[k - 1]? = some q ∧ d = [.added])) := by
  have key : ∀ (ps qs : List Page) (j : Nat), (k, d) ∈ comparePages fmt1 o j ps qs ↔ j ≤ k ∧
      ((∃ p q, ps[k - j]? = some p ∧ qs[k - j]? = some q ∧ d = comparePage fmt1 o p q ∧ d ≠ []) ∨
       (∃ p, ps[k - j]? = some p ∧ qs[k - j]? = none ∧ d = [.removed]) ∨
       (∃ q, ps[k - j]? = none ∧ qs[k - j]? = some q ∧ d = [.added])) := by
    intro ps
    induction ps with
    | nil =>
      intro qs
      induction qs with
      | nil => intro j; simp [comparePages]
      | cons q qs ih =>
        intro j
        rw [comparePages, List.mem_cons, ih (j + 1)]
        by_cases hjk : j = k
        · subst hjk
          simp
        · constructor
          · rintro (h | ⟨h1, h2⟩)
            · exact absurd (congrArg Prod.fst h).symm hjk
            · refine ⟨by omega, ?_⟩
              rw [show k - j = (k - (j + 1)) + 1 by omega]
              simpa using h2
          · rintro ⟨h1, h2⟩
            right
            refine ⟨by omega, ?_⟩
            rw [show k - j = (k - (j + 1)) + 1 by omega] at h2
            simpa using h2
    | cons p ps ih =>
      intro qs j
      have shift : j ≠ k → ∀ qs' : List Page,
          ((j + 1 ≤ k ∧ ((∃ p q, ps[k - (j + 1)]? = some p ∧ qs'[k - (j + 1)]? = some q ∧ d = comparePage fmt1 o p q ∧ d ≠ []) ∨
            (∃ p, ps[k - (j + 1)]? = some p ∧ qs'[k - (j + 1)]? = none ∧ d = [.removed]) ∨
            (∃ q, ps[k - (j + 1)]? = none ∧ qs'[k - (j + 1)]? = some q ∧ d = [.added]))) ↔
          (j + 1 ≤ k ∧ ((∃ p' q, (p :: ps)[k - j]? = some p' ∧ qs'[k - (j + 1)]? = some q ∧ d = comparePage fmt1 o p' q ∧ d ≠ []) ∨
            (∃ p', (p :: ps)[k - j]? = some p' ∧ qs'[k - (j + 1)]? = none ∧ d = [.removed]) ∨
            (∃ q, (p :: ps)[k - j]? = none ∧ qs'[k - (j + 1)]? = some q ∧ d = [.added])))) := by
        intro hjk qs'
        constructor
        · rintro ⟨h1, h2⟩
          refine ⟨h1, ?_⟩
          rw [show k - j = (k - (j + 1)) + 1 by omega]
          simpa using h2
        · rintro ⟨h1, h2⟩
          refine ⟨h1, ?_⟩
          rw [show k - j = (k - (j + 1)) + 1 by omega] at h2
          simpa using h2
      cases qs with
      | nil =>
        rw [comparePages, List.mem_cons, ih [] (j + 1)]
        by_cases hjk : j = k
        · subst hjk; simp
        · rw [shift hjk []]
          constructor
          · rintro (h | ⟨h1, h2⟩)
            · exact absurd (congrArg Prod.fst h).symm hjk
            · exact ⟨by omega, by simpa using h2⟩
          · rintro ⟨h1, h2⟩
            exact .inr ⟨by omega, by simpa using h2⟩
      | cons q qs =>
        have hstep : (k, d) ∈ comparePages fmt1 o j (p :: ps) (q :: qs) ↔
            (comparePage fmt1 o p q ≠ [] ∧ k = j ∧ d = comparePage fmt1 o p q) ∨ (k, d) ∈ comparePages fmt1 o (j + 1) ps qs := by
          rw [comparePages]
          by_cases hd : comparePage fmt1 o p q = []
          · simp [hd]
          · simp [hd]
        rw [hstep, ih qs (j + 1)]
        by_cases hjk : j = k
        · subst hjk
          simp only [Nat.sub_self, List.getElem?_cons_zero]
          constructor
          · rintro (⟨h1, _, h2⟩ | ⟨h1, _⟩)
            · exact ⟨Nat.le_refl _, .inl ⟨p, q, rfl, rfl, h2, by rw [h2]; exact h1⟩⟩
            · omega
          · rintro ⟨_, ⟨p', q', hp, hq, h2, h3⟩ | ⟨_, _, h, _⟩ | ⟨_, h, _⟩⟩
            · simp only [Option.some.injEq] at hp hq
              subst hp hq
              exact .inl ⟨by rw [← h2]; exact h3, trivial, h2⟩
            · simp at h
            · simp at h
        · rw [shift hjk qs]
          constructor
          · rintro (⟨_, h, _⟩ | ⟨h1, h2⟩)
            · exact absurd h.symm hjk
            · refine ⟨by omega, ?_⟩
              rw [show (q :: qs)[k - j]? = qs[k - (j + 1)]? by rw [show k - j = (k - (j + 1)) + 1 by omega]; simp]
              exact h2
          · rintro ⟨h1, h2⟩
            refine .inr ⟨by omega, ?_⟩
            rw [show (q :: qs)[k - j]? = qs[k - (j + 1)]? by rw [show k - j = (k - (j + 1)) + 1 by omega]; simp] at h2
            exact h2
  exact key ps qs 1

example (fmt1 : Rat → Bytes) (o : Opts) (p : Page) : comparePages fmt1 o 1 [] [p, p] = [(1, [.added]), (2, [.added])] := by simp [comparePages]

/-- C57 is violated: graphics and annotations are compared by kind and box only, so a change of colour or of the target
of a link is not seen; neither is a second copy of a graphic that the first page has once more than the second. -/
theorem C57_contents_not_compared_violated (fmt1 : Rat → Bytes) (kind : Bytes) (box : Option (Rat × Rat × Rat × Rat))
    (r1 r2 : Bytes) :
    compareKeyed (shapeKey fmt1) [⟨kind, box, r1⟩] [⟨kind, box, r2⟩] = none ∧
    compareKeyed (shapeKey fmt1) [⟨kind, box, r1⟩, ⟨kind, box, r1⟩] [⟨kind, box, r1⟩] = none := by
  have hk : ∀ r r', shapeKey fmt1 ⟨kind, box, r⟩ = shapeKey fmt1 ⟨kind, box, r'⟩ := by
    intro r r'; unfold shapeKey; cases box <;> rfl
  constructor
  · rw [compareKeyed_none]; simp [hk r1 r2]
  · rw [compareKeyed_none]; simp

/-- C57: with distinct kinds and boxes on each page, exactly the graphics (annotations) whose kind and box are only on
the second page are reported as added, and exactly those only on the first as removed. -/
theorem C57_keyed_exact (fmt1 : Rat → Bytes) (g1 g2 : List Shape) (h1 : (g1.map (shapeKey fmt1)).Nodup)
    (h2 : (g2.map (shapeKey fmt1)).Nodup) (a r : List Shape) (h : compareKeyed (shapeKey fmt1) g1 g2 = some (a, r)) :
    (∀ g, g ∈ a ↔ g ∈ g2 ∧ shapeKey fmt1 g ∉ g1.map (shapeKey fmt1)) ∧
    (∀ g, g ∈ r ↔ g ∈ g1 ∧ shapeKey fmt1 g ∉ g2.map (shapeKey fmt1)) := by
  obtain ⟨ha, hr⟩ := compareKeyed_exact _ g1 g2 h1 h2 a r h
  refine ⟨fun g => ?_, fun g => ?_⟩
  · rw [ha]; simp
  · rw [hr.mem_iff]; simp

/-- C57: equal image data are needed for an image to be left unreported, when both data are known. -/
theorem C57_image_data (a b : Img) : imagesEqual a b = true ↔ a = b := imagesEqual_iff a b

/-! ### C58 -/

/-- Two image references no further apart than one unit (exclusive). -/
def ImgNear (a b : ImgRef) : Prop := -1 < a.x - b.x ∧ a.x - b.x < 1 ∧ -1 < a.y - b.y ∧ a.y - b.y < 1

/-- What the image comparison may say about a pair. -/
def ImgOk (data1 data2 : Bytes → Option Img) (a b : ImgRef) : ImgTag → Prop
  | .kept => a.id = b.id ∧ ImgNear a b ∧ ∀ x y, data1 a.id = some x → data2 b.id = some y → x = y
  | .modified => a.id = b.id ∧ ImgNear a b ∧ ∃ x y, data1 a.id = some x ∧ data2 b.id = some y ∧ x ≠ y
  | .moved => ∃ x, data1 a.id = some x ∧ data2 b.id = some x ∧ x.data ≠ []

theorem imgTag_ok (data1 data2 : Bytes → Option Img) (a b : ImgRef) (h : a.id = b.id ∧ ImgNear a b) :
    ImgOk data1 data2 a b (imgTag (data1 a.id) (data2 b.id)) := by
  unfold imgTag
  cases h1 : data1 a.id with
  | none => exact ⟨h.1, h.2, by simp [h1]⟩
  | some x =>
    cases h2 : data2 b.id with
    | none => exact ⟨h.1, h.2, by simp [h2]⟩
    | some y =>
      simp only []
      split
      · rename_i he
        exact ⟨h.1, h.2, by simp [h1, h2, (imagesEqual_iff x y).mp he]⟩
      · rename_i he
        exact ⟨h.1, h.2, x, y, h1, h2, fun hc => he ((imagesEqual_iff x y).mpr hc)⟩

theorem perm_imgTags {β : Type} (ps : Pairs ImgTag) (f : Nat × Nat × ImgTag → β) :
    (ps.map f).Perm ((ps.filter (·.2.2 = .kept)).map f ++ (ps.filter (·.2.2 = .modified)).map f ++
      (ps.filter (·.2.2 = .moved)).map f) := by
  rw [← List.map_append, ← List.map_append]
  refine List.Perm.map f ?_
  induction ps with
  | nil => simp
  | cons p ps ih =>
    obtain ⟨i, j, t⟩ := p
    cases t
    · simpa using ih
    · simp only [List.filter_cons]
      simp only [decide_true, if_true, reduceCtorEq, decide_false, Bool.false_eq_true, if_false]
      refine (ih.cons _).trans ?_
      simp only [List.append_assoc, List.cons_append]
      exact List.perm_middle.symm
    · simp only [List.filter_cons]
      simp only [decide_true, if_true, reduceCtorEq, decide_false, Bool.false_eq_true, if_false]
      refine (ih.cons _).trans ?_
      exact List.perm_middle.symm

/-- C58: the image comparison accounts for every image of both pages exactly once – kept, modified, moved, removed or
added – where kept images have the same name and place and (if known) the same data, modified ones the same name and
place and other data, moved ones the same non-empty data. -/
theorem C58_images_accounted (data1 data2 : Bytes → Option Img) (t1 t2 : List ImgRef) :
    let d := (compareImages data1 data2 t1 t2).getD ⟨[], [], [], []⟩
    ∃ kept : List (ImgRef × ImgRef),
      (∀ p ∈ kept, ImgOk data1 data2 p.1 p.2 .kept) ∧ (∀ p ∈ d.modified, ImgOk data1 data2 p.1 p.2 .modified) ∧
      (∀ p ∈ d.moved, ImgOk data1 data2 p.1 p.2 .moved) ∧
      t1.Perm (kept.map (·.1) ++ d.modified.map (·.1) ++ d.moved.map (·.1) ++ d.removed) ∧
      t2.Perm (kept.map (·.2) ++ d.modified.map (·.2) ++ d.moved.map (·.2) ++ d.added) := by
  have g : Good t1.length t2.length (fun i j t => ImgOk data1 data2 (t1.getD i default) (t2.getD j default) t)
      (phase t1.length t2.length (fun _ i j => imgSame (data1 (t1.getD i default).id) (data2 (t2.getD j default).id))
        (fun _ _ => ImgTag.moved)
        (phase t1.length t2.length (fun _ i j => (t1.getD i default).id == (t2.getD j default).id &&
          positionsMatch (t1.getD i default).x (t1.getD i default).y (t2.getD j default).x (t2.getD j default).y 1)
          (fun i j => imgTag (data1 (t1.getD i default).id) (data2 (t2.getD j default).id)) [])) := by
    refine phase_good ?_ (phase_good ?_ (good_nil _ _ _))
    · intro ps i j _ _ _ _ _ hc
      unfold imgSame at hc
      cases h1 : data1 (t1.getD i default).id with
      | none => simp only [h1, Bool.false_eq_true] at hc
      | some x =>
        cases h2 : data2 (t2.getD j default).id with
        | none => simp only [h1, h2, Bool.false_eq_true] at hc
        | some y =>
          simp only [h1, h2, Bool.and_eq_true, decide_eq_true_eq, imagesEqual_iff] at hc
          obtain ⟨⟨hl, -⟩, rfl⟩ := hc
          exact ⟨x, h1, h2, by intro hx; rw [hx] at hl; simp at hl⟩
    · intro ps i j _ _ _ _ _ hc
      rw [Bool.and_eq_true, beq_iff_eq] at hc
      refine imgTag_ok data1 data2 _ _ ⟨hc.1, ?_⟩
      have := hc.2
      unfold positionsMatch at this
      rw [Bool.and_eq_true, decide_eq_true_eq, decide_eq_true_eq, abs_lt, abs_lt] at this
      unfold ImgNear
      grind
  have h1 := g.elems1 (d := default)
  have h2 := g.elems2 (d := default)
  have p1 := h1.trans (List.Perm.append (perm_imgTags _ _) (List.Perm.refl _))
  have p2 := h2.trans (List.Perm.append (perm_imgTags _ _) (List.Perm.refl _))
  have ok := g.ok
  unfold compareImages
  simp only []
  generalize phase t1.length t2.length (fun _ i j => imgSame (data1 (t1.getD i default).id) (data2 (t2.getD j default).id))
        (fun _ _ => ImgTag.moved) _ = ps at p1 p2 ok
  refine ⟨(ps.filter (·.2.2 = .kept)).map fun p => (t1.getD p.1 default, t2.getD p.2.1 default), ?_⟩
  have hd : ∀ (d : ImageDiff), (if d.added = [] ∧ d.removed = [] ∧ d.modified = [] ∧ d.moved = [] then none else
      some d).getD ⟨[], [], [], []⟩ = d := by
    intro d
    split
    · rename_i he; cases d; simp_all
    · rfl
  have hok : ∀ t : ImgTag, ∀ p ∈ (ps.filter (fun q => decide (q.2.2 = t))).map
      fun p => (t1.getD p.1 default, t2.getD p.2.1 default), ImgOk data1 data2 p.1 p.2 t := by
    intro t p hp
    rw [List.mem_map] at hp
    obtain ⟨q, hq, rfl⟩ := hp
    rw [List.mem_filter, decide_eq_true_eq] at hq
    have := ok q hq.1
    rw [hq.2] at this
    exact this
  rw [hd ⟨(free2 t2.length ps).map fun i => t2.getD i default, (free1 t1.length ps).map fun i => t1.getD i default,
    (ps.filter (·.2.2 = .modified)).map (fun p => (t1.getD p.1 default, t2.getD p.2.1 default)),
    (ps.filter (·.2.2 = .moved)).map (fun p => (t1.getD p.1 default, t2.getD p.2.1 default))⟩]
  refine ⟨hok _, hok _, hok _, ?_, ?_⟩
  · simpa [List.map_map, Function.comp_def] using p1
  · simpa [List.map_map, Function.comp_def] using p2

/-- Non-trivial: an image moved, one changed, one removed, one added. -/
example : compareImages (fun i => if i = b!"/A" then some ⟨1, 1, [], [], b!"x"⟩ else some ⟨1, 1, [], [], b!"y"⟩)
    (fun i => if i = b!"/A" then some ⟨1, 1, [], [], b!"x"⟩ else if i = b!"/B" then some ⟨1, 1, [], [], b!"z"⟩ else none)
    [⟨b!"/A", 0, 0, []⟩, ⟨b!"/B", 5, 5, []⟩, ⟨b!"/C", 0, 0, []⟩] [⟨b!"/D", 0, 0, []⟩, ⟨b!"/A", 9, 0, []⟩, ⟨b!"/B", 5, 5, []⟩] =
    some ⟨[⟨b!"/D", 0, 0, []⟩], [⟨b!"/C", 0, 0, []⟩], [(⟨b!"/B", 5, 5, []⟩, ⟨b!"/B", 5, 5, []⟩)],
      [(⟨b!"/A", 0, 0, []⟩, ⟨b!"/A", 9, 0, []⟩)]⟩ := by decide +kernel

end Pdfer.Props
