import Verif.Proofs.Rebuild

/-! Properties C36–C40 and C63–C65: page manipulation (core/manipulate) and page enumeration (content/extract). -/

namespace Pdfer.Props

open Pdfer.Go Pdfer.Manipulate Pdfer.Spec.Manipulate

/-- For examples: a text without an occurrence. -/
theorem notIn (key s : Bytes) (h : index key s = none) : ¬ key <:+: s := noOcc_iff_infix.1 (noOcc_iff_index.2 h)

/-- For examples: a text with an occurrence. -/
theorem isIn (key s : Bytes) (h : contains s key = true) : key <:+: s := (contains_iff s key).1 h

/-- For examples: `NoSpaced` by inspection of every position. -/
theorem noSpaced_of (s key : Bytes)
    (h : ((List.range (s.length + 1)).all fun j =>
      !(key.isPrefixOf (s.drop j) && ((s.drop (j + key.length)).head?.any reSpace))) = true) : NoSpaced s key := by
  intro a c b e hc
  rw [List.all_eq_true] at h
  have := h a.length (by rw [List.mem_range, e]; simp; omega)
  have h1 : s.drop a.length = key ++ c :: b := by rw [e, List.append_assoc, List.drop_left]
  have h2 : s.drop (a.length + key.length) = c :: b := by rw [← List.drop_drop, h1, List.drop_left]
  rw [h1, h2] at this
  have hp : key.isPrefixOf (key ++ c :: b) = true := by rw [List.isPrefixOf_iff_prefix]; exact List.prefix_append _ _
  simp [white_reSpace.1 hc, hp] at this

/-! ### C36 -/

/-- RotatePage calls on one page, one after the other. -/
def rotateSeq (m : Manip) (fuel : Nat) (page : Int) : List Int → Option (Option Manip)
  | [] => some (some m)
  | a :: as => match rotatePage m fuel page a with
    | some (some m') => rotateSeq m' fuel page as
    | other => other

/-- C36: any sequence of quarter turns on a page whose text states its rotation as `/Rotate N` (or not at all) leaves
the page at the start plus the sum of the turns, modulo 360 (so within 0..359), and changes no other object.
Partial: the rotation must be delimited by white space or `<`, `>` (see the violation below). -/
theorem C36_rotations_partial (m : Manip) (fuel : Nat) (page : Int) (n : Int) (s : Bytes) (r : Int) (as : List Int)
    (hpage : pageObject m fuel page = some (some n)) (hs : m.objects.get n = some s) (hr : RotationIs s r)
    (hdict : ¬ b!"/Rotate" <:+: s → b!">>" <:+: s) (hlo : -9223372036854775808 ≤ r) (hhi : r + 270 ≤ 9223372036854775807)
    (has : ∀ a ∈ as, a = 90 ∨ a = 180 ∨ a = 270) :
    ∃ m' t, rotateSeq m fuel page as = some (some m') ∧ m'.objects.get n = some t ∧
      RotationIs t (if as = [] then r else (r + as.sum) % 360) ∧
      (∀ k, k ≠ n → m'.objects.get k = m.objects.get k) ∧ pageObject m' fuel page = some (some n) := by
  induction as generalizing m s r with
  | nil => exact ⟨m, s, rfl, hs, hr, fun _ _ => rfl, hpage⟩
  | cons a as ih =>
    obtain ⟨h1, h2⟩ := rotateText_spec (angle := a) hr hdict hlo (by omega)
    have ha := has a (by simp)
    have hstep : rotatePage m fuel page a =
        some (some { m with objects := m.objects.set n (rotateText s a) }) := by
      unfold rotatePage
      rw [if_neg (by omega), hpage]
      simp [hs]
    have hlt := Int.emod_lt_of_pos (r + a) (show (0 : Int) < 360 by omega)
    have hge := Int.emod_nonneg (r + a) (show (360 : Int) ≠ 0 by omega)
    obtain ⟨m', t, e1, e2, e3, e4, e5⟩ := ih { m with objects := m.objects.set n (rotateText s a) } (rotateText s a)
      ((r + a) % 360) hpage (Map.get_set_eq _ _ _) h1 (fun h => absurd h2 h) (by omega) (by omega)
      (fun b hb => has b (by simp [hb]))
    refine ⟨m', t, ?_, e2, ?_, ?_, e5⟩
    · rw [rotateSeq, hstep]; exact e1
    · rw [if_neg (by simp), List.sum_cons]
      by_cases h : as = []
      · subst h; simpa using e3
      · rw [if_neg h] at e3
        have : ((r + a) % 360 + as.sum) % 360 = (r + (a + as.sum)) % 360 := by
          rw [Int.emod_add_emod, Int.add_assoc]
        rw [← this]
        exact e3
    · intro k hk
      rw [e4 k hk]
      exact Map.get_set_ne _ _ hk

/-- C36: four quarter turns restore a rotation in 0..359. -/
theorem C36_full_turn_partial (m : Manip) (fuel : Nat) (page : Int) (n : Int) (s : Bytes) (r : Int)
    (hpage : pageObject m fuel page = some (some n)) (hs : m.objects.get n = some s) (hr : RotationIs s r)
    (hdict : ¬ b!"/Rotate" <:+: s → b!">>" <:+: s) (hlo : 0 ≤ r) (hhi : r < 360) :
    ∃ m' t, rotateSeq m fuel page [90, 90, 90, 90] = some (some m') ∧ m'.objects.get n = some t ∧ RotationIs t r := by
  obtain ⟨m', t, e1, e2, e3, -, -⟩ := C36_rotations_partial m fuel page n s r [90, 90, 90, 90] hpage hs hr hdict (by omega)
    (by omega) (by simp)
  refine ⟨m', t, e1, e2, ?_⟩
  have h360 : ([90, 90, 90, 90] : List Int).sum = 360 := rfl
  rw [if_neg (by simp), h360] at e3
  have : (r + 360) % 360 = r := by omega
  rw [this] at e3
  exact e3

/-- C36: any other angle is an error. -/
theorem C36_other_angles (m : Manip) (fuel : Nat) (page a : Int) (h : a ≠ 90 ∧ a ≠ 180 ∧ a ≠ 270) :
    rotatePage m fuel page a = some none := by
  unfold rotatePage
  rw [if_pos h]

/-- C36 is violated when a name follows the number directly: the number is not recognised (270 + 90 gives 90), and the
next key is destroyed. -/
theorem C36_compact_violated :
    rotateText b!"<</Type/Page/Rotate 270/Parent 3 0 R>>" 90 = b!"<</Type/Page/Rotate 90 3 0 R>>" := by decide +kernel

/-- C36 is violated for an inherited rotation: a page that shows at 90 degrees because its parent says so is turned to
90 degrees again, not to 180. -/
theorem C36_inherited_violated :
    rotateText b!"<</Type/Page /Parent 3 0 R>>" 90 = b!"<</Type/Page /Parent 3 0 R/Rotate 90 >>" := by decide +kernel

/-- A file of three pages (one of them below an inner node), for examples. -/
def file3 (n : Int) : Option Bytes :=
  if n = 1 then some b!"1 0 obj\n<< /Type /Catalog /Pages 2 0 R >>\nendobj"
  else if n = 2 then some b!"2 0 obj\n<< /Type /Pages /Kids [ 4 0 R 3 0 R ] /Count 3 >>\nendobj"
  else if n = 3 then some b!"3 0 obj\n<</Type/Pages/Parent 2 0 R/Kids[5 0 R 15 0 R ]/Count 2>>\nendobj"
  else if n = 4 then some b!"4 0 obj\n<< /Type /Page /Parent 2 0 R /Rotate -90 >>\nendobj"
  else if n = 5 then some b!"5 0 obj\n<</Type/Page/Parent 3 0 R>>\nendobj"
  else if n = 15 then some b!"15 0 obj\n<</Type/Page/Parent 3 0 R /Rotate 450 >>\nendobj"
  else none

/-- A manipulator on it. -/
def manip3 : Manip := newManip file3 b!"1 0 R" [1, 2, 3, 4, 5, 15]

example : pageObject manip3 9 1 = some (some 4) ∧ pageObject manip3 9 2 = some (some 5) ∧
    pageObject manip3 9 3 = some (some 15) ∧ pageObject manip3 9 4 = some none := by decide +kernel

/-- Non-vacuity of C36: a negative start, with an explicit value, and an absent one. -/
example : RotationIs (b!"4 0 obj\n<< /Type /Page /Parent 2 0 R " ++ b!"/Rotate" ++ b!" " ++ decimal (-90) ++
    b!" >>\nendobj") (-90) :=
  .value b!"4 0 obj\n<< /Type /Page /Parent 2 0 R " b!" " b!" >>\nendobj" (-90) (notIn _ _ (by decide)) (by simp)
    (by simp [White]) (by intro c hc; simp at hc; subst hc; simp [White])

example : RotationIs b!"5 0 obj\n<</Type/Page/Parent 3 0 R>>\nendobj" 0 := .absent _ (notIn _ _ (by decide))

example : ((rotateSeq manip3 9 1 [90, 270]).bind id).bind (fun m => m.objects.get 4) =
    some b!"4 0 obj\n<< /Type /Page /Parent 2 0 R /Rotate 270 >>\nendobj" := by decide +kernel

/-! ### C37 -/

/-- C37: the page ranges of SplitPDFByPageCount concatenate to 1..total in order. -/
theorem C37_ranges_cover (total per : Nat) (hp : 1 ≤ per) (ht : total ≠ 0) :
    ∃ rs, splitRanges total per = some rs ∧ (rs.map rangePages).flatten = (List.range total).map (· + 1) := by
  refine ⟨pageRanges total per total 1, ?_, ?_⟩
  · unfold splitRanges
    rw [if_neg (by omega), if_neg ht]
  · rw [pageRanges_cover total per hp total 1 (by omega) (by omega)]
    rfl

/-- C37: every range but the last has exactly `per` pages, the last one at least one and at most `per`. -/
theorem C37_range_sizes (total per : Nat) (rs : List (Nat × Nat)) (hp : 1 ≤ per) (h : splitRanges total per = some rs) :
    (∀ r ∈ rs.dropLast, r.2 + 1 - r.1 = per) ∧ ∀ r ∈ rs, 1 ≤ r.1 ∧ r.1 ≤ r.2 ∧ r.2 ≤ total ∧ r.2 + 1 - r.1 ≤ per := by
  unfold splitRanges at h
  rw [if_neg (by omega)] at h
  split at h
  · simp at h
  · simp at h
    subst h
    obtain ⟨h1, h2⟩ := pageRanges_sizes total per hp total 1
    exact ⟨h2, h1⟩

/-- C37: so the ranges pass the validation of SplitPDF. -/
theorem C37_ranges_valid (total per : Nat) (rs : List (Nat × Nat)) (hp : 1 ≤ per) (h : splitRanges total per = some rs) :
    rangesValid total (rs.map fun r => ((r.1 : Int), (r.2 : Int))) = true := by
  unfold rangesValid
  rw [List.all_eq_true]
  intro r hr
  obtain ⟨q, hq, rfl⟩ := List.mem_map.1 hr
  have := (C37_range_sizes total per rs hp h).2 q hq
  simp
  omega

/-- C37: with no page, or fewer than one page per part, it is an error. -/
theorem C37_rejects (total per : Nat) : splitRanges total per = none ↔ per = 0 ∨ total = 0 := by
  unfold splitRanges
  split
  · simp; omega
  · split
    · simp; omega
    · simp; omega

example : splitRanges 7 3 = some [(1, 3), (4, 6), (7, 7)] := by decide
example : splitRanges 6 3 = some [(1, 3), (4, 6)] := by decide

/-! ### C38 -/

/-- The kids a deletion leaves: all whose decimal number does not end with the decimal number of the deleted page. -/
def leftAfter (n : Nat) (nums : List Nat) : List Nat := nums.filter fun m => decide (¬ natDec n <:+ natDec m)

/-- C38: when no other kid's number ends with the digits of the deleted one, exactly that page goes.  -/
theorem C38_kids_left_partial (n : Nat) (nums : List Nat) (h : ∀ m ∈ nums, natDec n <:+ natDec m → m = n) :
    leftAfter n nums = nums.filter (· ≠ n) := by
  unfold leftAfter
  apply List.filter_congr
  intro m hm
  by_cases e : m = n
  · subst e; simp
  · simp only [e, ne_eq, not_false_eq_true, decide_true]
    simp only [decide_eq_true_eq]
    exact fun hs => e (h m hm hs)

/-- C38 (exact effect on the parent's text, `/Kids[` before `/Count N`): the kids array becomes the remaining kids in
order, and `/Count` becomes the number of remaining kids **minus one** – one too few. Partial: the keys occur once, the
array follows `/Kids` directly, and the number is delimited by white space or `<`, `>`. -/
theorem C38_delete_partial (a b c w1 w2 wc : Bytes) (nums : List Nat) (n cnt : Nat) (h1 : ∀ x ∈ w1, White x)
    (h2 : ∀ x ∈ w2, White x) (hwc0 : wc ≠ []) (hwc : ∀ x ∈ wc, White x) (hc : Ends c)
    (hno : ∀ t ∈ [a, b, c], ¬ b!"/Kids" <:+: t ∧ ¬ b!"/Count" <:+: t) (hlen : nums.length ≤ 9223372036854775807) :
    deleteText (a ++ b!"/Kids" ++ kidsArray w1 nums w2 ++ b ++ b!"/Count" ++ wc ++ natDec cnt ++ c) n =
      if (leftAfter n nums).length = nums.length ∨ leftAfter n nums = [] then none
      else some (a ++ b!"/Kids" ++ kidsArray [] (leftAfter n nums) b!" " ++ b!" " ++ b ++ b!"/Count " ++
        natDec ((leftAfter n nums).length - 1) ++ c) := by
  have := delete_kids_first (a := a) (b := b) (c := c) (n := n) (cnt := cnt) h1 h2 hwc0 hwc hc
    (fun t ht => ⟨noOcc_iff_infix.2 (hno t ht).1, noOcc_iff_infix.2 (hno t ht).2⟩) hlen
  simp only [List.append_assoc] at this ⊢
  rw [this]
  simp [leftAfter]

/-- C38: the same with `/Count` before `/Kids`. -/
theorem C38_delete_count_first_partial (a b c w1 w2 wc : Bytes) (nums : List Nat) (n cnt : Nat) (h1 : ∀ x ∈ w1, White x)
    (h2 : ∀ x ∈ w2, White x) (hwc0 : wc ≠ []) (hwc : ∀ x ∈ wc, White x) (hb : Ends b) (hb0 : b ≠ [])
    (hno : ∀ t ∈ [a, b, c], ¬ b!"/Kids" <:+: t ∧ ¬ b!"/Count" <:+: t) (hlen : nums.length ≤ 9223372036854775807) :
    deleteText (a ++ b!"/Count" ++ wc ++ natDec cnt ++ b ++ b!"/Kids" ++ kidsArray w1 nums w2 ++ c) n =
      if (leftAfter n nums).length = nums.length ∨ leftAfter n nums = [] then none
      else some (a ++ b!"/Count " ++ natDec ((leftAfter n nums).length - 1) ++ b ++ b!"/Kids" ++
        kidsArray [] (leftAfter n nums) b!" " ++ b!" " ++ c) := by
  have := delete_count_first (a := a) (b := b) (c := c) (n := n) (cnt := cnt) h1 h2 hwc0 hwc hb hb0
    (fun t ht => ⟨noOcc_iff_infix.2 (hno t ht).1, noOcc_iff_infix.2 (hno t ht).2⟩) hlen
  simp only [List.append_assoc] at this ⊢
  rw [this]
  simp [leftAfter]

/-- C38 is violated: a node with two or more kids, all different and none ending with the digits of another, says after
the deletion that it has one page fewer than its kids. -/
theorem C38_count_violated (n : Nat) (nums : List Nat) (a b c : Bytes) (cnt : Nat) (hn : n ∈ nums) (hnd : nums.Nodup)
    (hlen2 : 2 ≤ nums.length) (h : ∀ m ∈ nums, natDec n <:+ natDec m → m = n) (hc : Ends c)
    (hno : ∀ t ∈ [a, b, c], ¬ b!"/Kids" <:+: t ∧ ¬ b!"/Count" <:+: t) (hlen : nums.length ≤ 9223372036854775807) :
    deleteText (a ++ b!"/Kids" ++ kidsArray [] nums [] ++ b ++ b!"/Count" ++ b!" " ++ natDec cnt ++ c) n =
      some (a ++ b!"/Kids" ++ kidsArray [] (nums.erase n) b!" " ++ b!" " ++ b ++ b!"/Count " ++
        natDec ((nums.erase n).length - 1) ++ c) ∧ (nums.erase n).length - 1 ≠ (nums.erase n).length := by
  have hl : (nums.erase n).length = nums.length - 1 := by rw [List.length_erase, if_pos (by simpa using hn)]
  have hleft : leftAfter n nums = nums.erase n := by
    rw [C38_kids_left_partial n nums h, hnd.erase_eq_filter]
    apply List.filter_congr
    intro m _
    by_cases e : m = n <;> simp [e]
  have hno' : ¬ ((nums.erase n).length = nums.length ∨ nums.erase n = []) := by
    rintro (h | h)
    · omega
    · rw [h] at hl; simp at hl; omega
  rw [C38_delete_partial a b c [] [] b!" " nums n cnt nil_white nil_white (by simp) sp_white hc hno hlen, hleft, if_neg hno']
  exact ⟨rfl, by omega⟩

/-- C38 is violated: deleting page object 5 also removes page object 15, and the count says 0. -/
theorem C38_suffix_violated : deleteText b!"<</Type/Pages/Kids[5 0 R 15 0 R 6 0 R ]/Count 3>>" 5 =
    some b!"<</Type/Pages/Kids[6 0 R ] /Count 0>>" := by decide +kernel

/-- C38 is violated for `/Kids [`: most of the old array stays behind as garbage. -/
theorem C38_spaced_violated : deleteText b!"<< /Type /Pages /Kids [5 0 R 7 0 R 6 0 R] /Count 3 >>" 5 =
    some b!"<< /Type /Pages /Kids [7 0 R 6 0 R ] 0 R 7 0 R 6 0 R] /Count 1 >>" := by decide +kernel

/-- C38 is violated when a name follows the count directly: that key is destroyed (here the parent reference). -/
theorem C38_next_key_violated : deleteText b!"<</Type/Pages/Kids[5 0 R 7 0 R]/Count 2/Parent 1 0 R>>" 5 =
    some b!"<</Type/Pages/Kids[7 0 R ] /Count 0 1 0 R>>" := by decide +kernel

/-- C38 is violated for nested nodes: the count of the root is not adjusted. -/
theorem C38_ancestor_violated : (((deletePage manip3 9 3).bind id).map fun m => (m.objects.get 2, m.objects.get 3)) =
    some (some b!"2 0 obj\n<< /Type /Pages /Kids [ 4 0 R 3 0 R ] /Count 3 >>\nendobj",
      some b!"3 0 obj\n<</Type/Pages/Parent 2 0 R/Kids[5 0 R ] /Count 0>>\nendobj") := by decide +kernel

/-- C38: page numbers keep meaning the pages of the opened file, whatever was deleted, inserted or rotated before. -/
theorem C38_numbering_fixed (m m' : Manip) (hg : m'.get = m.get) (hr : m'.root = m.root) (fuel : Nat) (page : Int) :
    pageObject m' fuel page = pageObject m fuel page := by
  unfold pageObject
  rw [hg, hr]

example : leftAfter 5 [5, 15, 6] = [6] ∧ leftAfter 15 [5, 15, 6] = [5, 6] := by decide +kernel
example : deleteText (b!"<</Type/Pages" ++ b!"/Kids" ++ kidsArray [] [5, 16, 6] [] ++ [] ++ b!"/Count" ++ b!" " ++
    natDec 3 ++ b!">>") 5 = some b!"<</Type/Pages/Kids[16 0 R 6 0 R ] /Count 1>>" := by decide +kernel

/-! ### C39 -/

/-- C39: the objects of the merged file are numbered 1, 2, 3, … without gap or repetition, whatever the inputs and the
order in which their objects are visited. -/
theorem C39_numbers_distinct (inputs : List Input) (h : ∀ i ∈ inputs, i.nums.Nodup) :
    (merge inputs).1.map (·.1) = (List.range (objectCount inputs + 2)).map fun p : Nat => 1 + (p : Int) := by
  obtain ⟨h1, h2, -⟩ := fold_numbers inputs h { next := 1, map := [], out := [], pages := [] }
  unfold merge
  simp only [List.map_append, h2, h1, List.map_nil, List.nil_append, List.map_cons]
  rw [List.range_succ, List.range_succ]
  simp [List.map_append]
  omega

/-- C39: the copy of the object visited at position `vis.length` of an input is its text in which exactly the references
to objects visited up to then (itself included) are renumbered – to the right numbers – and all others are kept.
Partial with respect to C39: references to objects visited later are not renumbered. -/
theorem C39_references_partial (before after : List Input) (i : Input)
    (h : ∀ j ∈ before ++ i :: after, j.nums.Nodup) (vis rest : List Int) (n : Int) (ps : List Piece)
    (hv : i.nums.filter (fun n => (i.get n).isSome) = vis ++ n :: rest) (ho : i.get n = some (textOf ps))
    (hw : WellFormed ps) (hs : SmallRefs ps) :
    ((1 + objectCount before + vis.length : Int), ps.flatMap (Piece.renumbered fun k =>
        if (k : Int) ∈ vis ++ [n] then some (1 + objectCount before + ((vis ++ n :: rest).idxOf (k : Int) : Int)) else none)) ∈
      (merge (before ++ i :: after)).1 := by
  obtain ⟨m, hm, hmem⟩ := fold_text before after i h { next := 1, map := [], out := [], pages := [] } vis rest n
    (textOf ps) hv ho
  rw [updateRefs_pieces m ps hw hs] at hmem
  have hf : (fun k : Nat => m.get (k : Int)) = fun k : Nat =>
      if (k : Int) ∈ vis ++ [n] then some (1 + objectCount before + ((vis ++ n :: rest).idxOf (k : Int) : Int)) else none := by
    funext k
    rw [hm]
    unfold numbering
    by_cases hk : (k : Int) ∈ vis ++ [n]
    · rw [if_pos hk, if_pos hk]
      have e : vis ++ n :: rest = (vis ++ [n]) ++ rest := by simp
      have hi : (vis ++ n :: rest).idxOf (k : Int) = (vis ++ [n]).idxOf (k : Int) := by
        rw [e, List.idxOf_append, if_pos hk]
      rw [hi]
    · rw [if_neg hk, if_neg hk]
  rw [hf] at hmem
  unfold merge
  simp only
  exact List.mem_append_left _ hmem

/-- C39: the kids of the merged page tree are the new numbers of the page objects in the order of the visit of each
input (not in page order). -/
theorem C39_page_order_partial (inputs : List Input) (h : ∀ i ∈ inputs, i.nums.Nodup) :
    ((1 + objectCount inputs : Int), pagesDict (pagePositions 1 inputs)) ∈ (merge inputs).1 := by
  have h1 := (fold_numbers inputs h { next := 1, map := [], out := [], pages := [] }).1
  have h2 := fold_pages inputs h { next := 1, map := [], out := [], pages := [] }
  unfold merge
  simp only
  rw [h1, h2]
  simp

/-- C39 is violated for every order of the visit: of two different objects that refer to each other (as a page and its
parent do), one is copied – under its new number – with the old number of the other still in it. -/
theorem C39_mutual_violated (before after : List Input) (i : Input) (h : ∀ j ∈ before ++ i :: after, j.nums.Nodup)
    (a b : Nat) (pa pb : List Piece) (hab : a ≠ b) (ha : (a : Int) ∈ i.nums) (hb : (b : Int) ∈ i.nums)
    (hga : i.get a = some (textOf pa)) (hgb : i.get b = some (textOf pb)) (hwa : WellFormed pa) (hwb : WellFormed pb)
    (hsa : SmallRefs pa) (hsb : SmallRefs pb) (hra : Piece.ref b ∈ pa) (hrb : Piece.ref a ∈ pb) :
    ∃ f : Nat → Option Int, ∃ k : Int,
      (f b = none ∧ (k, pa.flatMap (Piece.renumbered f)) ∈ (merge (before ++ i :: after)).1 ∧
        refText b <:+: pa.flatMap (Piece.renumbered f)) ∨
      (f a = none ∧ (k, pb.flatMap (Piece.renumbered f)) ∈ (merge (before ++ i :: after)).1 ∧
        refText a <:+: pb.flatMap (Piece.renumbered f)) := by
  have hnd : i.visited.Nodup := (h i (by simp)).filter _
  have hma : (a : Int) ∈ i.visited := List.mem_filter.2 ⟨ha, by simp [hga]⟩
  have hmb : (b : Int) ∈ i.visited := List.mem_filter.2 ⟨hb, by simp [hgb]⟩
  have kept : ∀ (f : Nat → Option Int) (x : Nat) (ps : List Piece), f x = none → Piece.ref x ∈ ps →
      refText x <:+: ps.flatMap (Piece.renumbered f) := by
    intro f x ps hf hx
    obtain ⟨p1, p2, rfl⟩ := List.append_of_mem hx
    refine ⟨p1.flatMap (Piece.renumbered f), p2.flatMap (Piece.renumbered f), ?_⟩
    simp [Piece.renumbered, hf]
  obtain ⟨va, ra, ea⟩ := List.append_of_mem hma
  by_cases hin : (b : Int) ∈ va
  · obtain ⟨vb, rb, eb⟩ := List.append_of_mem hin
    have ev : i.visited = vb ++ (b : Int) :: (rb ++ (a : Int) :: ra) := by rw [ea, eb]; simp
    have hnot : (a : Int) ∉ vb ++ [(b : Int)] := by
      rw [ev] at hnd
      intro hm
      rcases List.mem_append.1 hm with hm | hm
      · rw [List.nodup_append] at hnd
        exact hnd.2.2 _ hm a (by simp) rfl
      · simp at hm; omega
    refine ⟨_, _, Or.inr ⟨?_, C39_references_partial before after i h vb _ b pb ev hgb hwb hsb, kept _ a pb ?_ hrb⟩⟩
    · rw [if_neg hnot]
    · rw [if_neg hnot]
  · have hnot : (b : Int) ∉ va ++ [(a : Int)] := by
      intro hm
      rcases List.mem_append.1 hm with hm | hm
      · exact hin hm
      · simp at hm; omega
    refine ⟨_, _, Or.inl ⟨?_, C39_references_partial before after i h va ra a pa ea hga hwa hsa, kept _ b pa ?_ hra⟩⟩
    · rw [if_neg hnot]
    · rw [if_neg hnot]

/-- Two one-page files, for the examples: catalog 1, page tree 2, page 3. -/
def one (n : Int) : Option Bytes :=
  if n = 1 then some b!"<</Type/Catalog/Pages 2 0 R>>"
  else if n = 2 then some b!"<</Type/Pages/Kids[3 0 R ]/Count 1>>"
  else if n = 3 then some b!"<</Type/Page/Parent 2 0 R/Contents 4 0 R>>"
  else if n = 4 then some b!"(contents)" else none

/-- C39 is violated: merging the file with itself, the copy of the second page tree (object 6) names object 3, which is
the first file's page, and the second page (object 7) names object 4, the first file's contents. -/
theorem C39_cross_file_violated :
    ((merge [⟨one, [3], [1, 2, 3, 4]⟩, ⟨one, [3], [1, 2, 3, 4]⟩]).1.map (·.2)) =
      [b!"<</Type/Catalog/Pages 2 0 R>>", b!"<</Type/Pages/Kids[3 0 R ]/Count 1>>",
       b!"<</Type/Page/Parent 2 0 R/Contents 4 0 R>>", b!"(contents)",
       b!"<</Type/Catalog/Pages 2 0 R>>", b!"<</Type/Pages/Kids[3 0 R ]/Count 1>>",
       b!"<</Type/Page/Parent 6 0 R/Contents 4 0 R>>", b!"(contents)",
       b!"<</Type/Pages/Kids[3 0 R  7 0 R ]/Count 2>>", b!"<</Type/Catalog/Pages 9 0 R>>"] := by decide +kernel

/-- C39 is violated: a visit in another order (Go's map iteration) reverses the pages. -/
theorem C39_order_violated :
    ((merge [⟨fun n => if n = 5 then some b!"(first)" else if n = 6 then some b!"(second)" else none, [5, 6], [6, 5]⟩]).1) =
      [(1, b!"(second)"), (2, b!"(first)"), (3, b!"<</Type/Pages/Kids[1 0 R  2 0 R ]/Count 2>>"),
       (4, b!"<</Type/Catalog/Pages 3 0 R>>")] := by decide +kernel

/-- Non-vacuity: the texts are pieces. -/
example : one 3 = some (textOf [.plain b!"<</Type/Page/Parent ", .ref 2, .plain b!"/Contents ", .ref 4, .plain b!">>"]) := by
  decide +kernel

/-- For examples: plain text by inspection of every position. -/
theorem plainText_of (t : Bytes) (h1 : (t.getLast?.any isDigit) = false)
    (h2 : ((List.range t.length).all fun j =>
      !((t.drop j).head?.any reSpace && (t.drop (j + 1)).head? == some 82)) = true) : PlainText t := by
  constructor
  · intro c hc hd
    rw [hc] at h1
    have : isDigit c = true := by simp [isDigit, hd]
    simp [this] at h1
  · intro a c b e hw
    rw [List.all_eq_true] at h2
    have := h2 a.length (by rw [List.mem_range, e]; simp)
    have e1 : t.drop a.length = c :: 82 :: b := by rw [e, List.drop_left]
    have e2 : t.drop (a.length + 1) = 82 :: b := by rw [← List.drop_drop, e1]; rfl
    rw [e1, e2] at this
    simp [white_reSpace.1 hw] at this

example : WellFormed [.plain b!"<</Type/Page/Parent ", .ref 2, .plain b!"/Contents ", .ref 4, .plain b!">>"] :=
  ⟨plainText_of _ (by decide) (by decide), plainText_of _ (by decide) (by decide), plainText_of _ (by decide) (by decide)⟩

/-! ### C40 -/

/-- C40: for a file that holds a page tree, of any depth and shape, the manipulator's page list is the leaves of the tree
from left to right. -/
theorem C40_pages_in_order_partial (get : Int → Option Bytes) (t : PTree) (h : Holds get t) :
    ∃ F, ∀ fuel, F ≤ fuel → pageNums get fuel t.num = some (some (t.pages.map Int.ofNat)) := pageNums_tree h

/-- C40: the same for the page list of content extraction, when every `/Kids` is followed directly by `[`. -/
theorem C40_extract_pages_in_order_partial (get : Int → Option Bytes) (t : PTree) (h : HoldsCompact get t) :
    ∃ F, ∀ fuel, F ≤ fuel → xPageNums get fuel t.num = some (some (t.pages.map Int.ofNat)) := xPageNums_tree h

/-- C40 is violated: with white space between `/Kids` and `[` (the usual way to write it), content extraction finds no
page below the node, whatever the kids are. -/
theorem C40_spaced_kids_violated (get : Int → Option Bytes) (n : Int) (pre w arr : Bytes) (fuel : Nat) (hw0 : w ≠ [])
    (hw : ∀ c ∈ w, White c) (hpre : ¬ b!"/Kids" <:+: pre) (hg : get n = some (pre ++ b!"/Kids" ++ w ++ b!"[" ++ arr))
    (hp : SaysPages (pre ++ b!"/Kids" ++ w ++ b!"[" ++ arr)) : xPageNums get (fuel + 1) n = some (some []) := by
  apply xPageNums_spaced hg hp
  have e : pre ++ b!"/Kids" ++ w ++ b!"[" ++ arr = pre ++ (b!"/Kids" ++ (w ++ (91 :: arr))) := by simp
  rw [e, searchWith_first (c := 47) (k := b!"Kids") (fun s => reTok_prefix)
    (by intro d hd; simp at hd; subst hd; decide) (noOcc_iff_infix.2 hpre)]
  apply searchWith_isSome_of_drop 0
  rw [List.drop_zero]
  unfold reTok
  rw [reLit_append, Option.bind_some, reSp1_white hw0 (fun c hc => white_reSpace.1 (hw c hc))
    (by intro c hc; simp at hc; subst hc; decide), Option.bind_some, if_neg]
  · simp
  · rw [List.takeWhile_cons, if_pos (by decide)]; simp

/-- C40 is violated: a page object `<</Type /Page/Parent …>>` is no page for the manipulator. -/
theorem C40_page_type_violated : pageNums (fun _ => some b!"<</Type /Page/Parent 2 0 R>>") 9 5 = some (some []) := by
  decide +kernel

/-- C40 is violated: a compact page object with a `/Type` followed by a space further down is no page either. -/
theorem C40_mixed_violated :
    pageNums (fun _ => some b!"<</Type/Page/Group<</Type /Group/S/Transparency>>/Parent 2 0 R>>") 9 5 = some (some []) := by
  decide +kernel

/-- C40 is violated: on a cyclic page tree the manipulator's enumeration never ends – no amount of steps is enough. -/
theorem C40_cycle_violated (get : Int → Option Bytes) (S : Nat → Prop)
    (h : ∀ n, S n → ∃ s kids, get n = some s ∧ NodeText s kids ∧ ∃ k ∈ kids, S k ∧ k ≤ 9223372036854775807)
    (n : Nat) (hn : S n) (fuel : Nat) : pageNums get fuel n = none := pageNums_diverges h fuel n hn

/-- C40 is violated in the same way by content extraction. -/
theorem C40_extract_cycle_violated (get : Int → Option Bytes) (S : Nat → Prop)
    (h : ∀ n, S n → ∃ s kids, get n = some s ∧ SaysPages s ∧ CompactKids s kids ∧
      ∃ k ∈ kids, S k ∧ k ≤ 9223372036854775807)
    (n : Nat) (hn : S n) (fuel : Nat) : xPageNums get fuel n = none := xPageNums_diverges h fuel n hn

/-- Non-vacuity: the file of three pages holds the tree with the leaves 4, 5, 15. -/
theorem file3_holds : Holds file3 (.node 2 [.page 4, .node 3 [.page 5, .page 15]]) := by
  refine .node 2 _ b!"2 0 obj\n<< /Type /Pages /Kids [ 4 0 R 3 0 R ] /Count 3 >>\nendobj" (by decide) (by decide) ⟨Or.inl ?_, ?_⟩ ?_
  · exact ⟨b!" ", b!" /Kids [ 4 0 R 3 0 R ] /Count 3 >>\nendobj", by simp, by simp [White],
      by intro c hc; simp at hc; subst hc; simp [White], b!"2 0 obj\n<< ", notIn _ _ (by decide), by decide⟩
  · exact ⟨b!" ", b!" ", b!" ", b!" /Count 3 >>\nendobj", by simp [White], by simp [White], by simp [White],
      b!"2 0 obj\n<< /Type /Pages ", notIn _ _ (by decide), by decide +kernel⟩
  · intro k hk
    simp only [List.mem_cons, List.not_mem_nil, or_false] at hk
    rcases hk with rfl | rfl
    · exact .page 4 b!"4 0 obj\n<< /Type /Page /Parent 2 0 R /Rotate -90 >>\nendobj" (by decide) (by decide) (Or.inl
        ⟨b!" ", b!" /Parent 2 0 R /Rotate -90 >>\nendobj", by simp, by simp [White],
          by intro c hc; simp at hc; subst hc; simp [White], b!"4 0 obj\n<< ", notIn _ _ (by decide), by decide⟩)
    · refine .node 3 _ b!"3 0 obj\n<</Type/Pages/Parent 2 0 R/Kids[5 0 R 15 0 R ]/Count 2>>\nendobj" (by decide) (by decide) ⟨Or.inr ?_, ?_⟩ ?_
      · exact ⟨b!"/Parent 2 0 R/Kids[5 0 R 15 0 R ]/Count 2>>\nendobj", by intro c hc; simp at hc; subst hc; simp,
          ⟨b!"3 0 obj\n<<", notIn _ _ (by decide), by decide⟩, noSpaced_of _ _ (by decide)⟩
      · exact ⟨[], [], b!" ", b!"/Count 2>>\nendobj", by simp, by simp, by simp [White],
          b!"3 0 obj\n<</Type/Pages/Parent 2 0 R", notIn _ _ (by decide), by decide +kernel⟩
      · intro k hk
        simp only [List.mem_cons, List.not_mem_nil, or_false] at hk
        rcases hk with rfl | rfl
        · exact .page 5 b!"5 0 obj\n<</Type/Page/Parent 3 0 R>>\nendobj" (by decide) (by decide) (Or.inr
            ⟨b!"/Parent 3 0 R>>\nendobj", by intro c hc; simp at hc; subst hc; simp,
              ⟨b!"5 0 obj\n<<", notIn _ _ (by decide), by decide⟩, noSpaced_of _ _ (by decide)⟩)
        · exact .page 15 b!"15 0 obj\n<</Type/Page/Parent 3 0 R /Rotate 450 >>\nendobj" (by decide) (by decide) (Or.inr
            ⟨b!"/Parent 3 0 R /Rotate 450 >>\nendobj", by intro c hc; simp at hc; subst hc; simp,
              ⟨b!"15 0 obj\n<<", notIn _ _ (by decide), by decide⟩, noSpaced_of _ _ (by decide)⟩)

example : pageNums file3 9 2 = some (some [4, 5, 15]) := by decide +kernel

/-- Non-vacuity: in the same file content extraction finds nothing, because of `/Kids [`. -/
example : xPageNums file3 9 2 = some (some []) := by decide +kernel

/-- Non-vacuity: a compact tree. -/
theorem one_holds : HoldsCompact one (.node 2 [.page 3]) := by
  refine .node 2 _ b!"<</Type/Pages/Kids[3 0 R ]/Count 1>>" (by decide) (by decide) (Or.inl (isIn _ _ (by decide)))
    (by simp) ?_ ?_
  · exact ⟨b!"<</Type/Pages", [], b!" ", b!"/Count 1>>", by simp, by simp [White], notIn _ _ (by decide),
      notIn _ _ (by decide), by decide +kernel⟩
  · intro k hk
    simp only [List.mem_cons, List.not_mem_nil, or_false] at hk
    subst hk
    refine .page 3 b!"<</Type/Page/Parent 2 0 R/Contents 4 0 R>>" (by decide) (by decide) ⟨?_, Or.inl (isIn _ _ (by decide))⟩
    rintro (h | h)
    · exact notIn _ _ (by decide) h
    · exact notIn _ _ (by decide) h

/-- Non-vacuity: a node that is its own kid. -/
example (fuel : Nat) : pageNums (fun _ => some b!"<</Type/Pages/Kids[2 0 R]>>") fuel 2 = none := by
  refine C40_cycle_violated _ (· = 2) ?_ 2 rfl fuel
  rintro n rfl
  refine ⟨_, [2], rfl, ⟨Or.inr ⟨b!"/Kids[2 0 R]>>", by intro c hc; simp at hc; subst hc; simp,
    ⟨b!"<<", notIn _ _ (by decide), by decide⟩, noSpaced_of _ _ (by decide)⟩,
    ⟨[], [], [], b!">>", by simp, by simp, by simp, b!"<</Type/Pages", notIn _ _ (by decide), by decide +kernel⟩⟩,
    2, by simp, rfl, by decide⟩

/-! ### C63 ExtractPages -/

/-- C63 is violated: an extracted file contains only the selected page objects, the page tree root 1 and the catalog –
no content stream, font or other object that a page refers to. -/
theorem C63_dependencies_violated (env : Writer.Env) (sel : List (Int × Bytes)) (k : Int) (h1 : k ≠ 1)
    (hs : k ∉ sel.map (·.1)) (hc : k ≠ extractCatalog env sel) :
    (Writer.run env (extractOps sel)).objects.get k = none := extract_objects env sel k h1 hs hc

/-- C63 is violated: a page that has a parent reference keeps it as its first `/Parent`; the new one is only added
before the last `>>`, as a second entry of the same name. -/
theorem C63_old_parent_violated (pre w rest : Bytes) (p : Nat) (hpre : ¬ b!"/Parent" <:+: pre) (hw0 : w ≠ [])
    (hw : ∀ x ∈ w, White x) (hr : Ends rest) (hname : ¬ b!"/Parent/" <:+: pre ++ b!"/Parent" ++ w ++ natDec p ++ rest)
    (hg : b!">>" <:+: rest) :
    ∃ a b, rest = a ++ b ∧ setDictValue (pre ++ b!"/Parent" ++ w ++ natDec p ++ rest) b!"/Parent" b!"1 0 R" =
      pre ++ b!"/Parent" ++ w ++ natDec p ++ a ++ b!"/Parent 1 0 R " ++ b := by
  have e : pre ++ b!"/Parent" ++ w ++ natDec p ++ rest = pre ++ (b!"/Parent" ++ (w ++ (natDec p ++ rest))) := by simp
  rw [e] at hname ⊢
  have hn : searchWith (reName b!"/Parent") (pre ++ (b!"/Parent" ++ (w ++ (natDec p ++ rest)))) = none := by
    apply searchWith_none (key := b!"/Parent/") _ (noOcc_iff_infix.2 hname)
    intro s hs
    obtain ⟨t, rfl⟩ := reName_prefix hs
    unfold reName at hs
    rw [reLit_append, Option.bind_some] at hs
    have : reLit b!"/" t ≠ none := by intro h; rw [h] at hs; exact hs rfl
    obtain ⟨u, rfl⟩ := reLit_prefix this
    exact ⟨u, by simp⟩
  obtain ⟨a, b, h1, h2⟩ := set_reference_keeps (value := b!"1 0 R") (noOcc_iff_infix.2 hpre) hw0 hw hr hn
    ⟨b!"1", b!"0 R", rfl, ⟨by simp, by decide, by simp⟩⟩ hg
  exact ⟨a, b, h1, by rw [h2]; simp⟩

/-- C63 is violated: a selected page whose object number is 1 is overwritten by the new page tree root. -/
theorem C63_page_one_violated (env : Writer.Env) :
    ((Writer.run env (extractOps [(1, b!"<</Type/Page /Parent 2 0 R>>")])).objects.get 1).map (·.content) =
      some (some b!"<</Type/Pages/Kids[1 0 R ]/Count 1>>") := rfl

/-- C63: ExtractPages fails when a page number is out of range. -/
theorem C63_range_checked (objects : Map Int Bytes) (all : List Int) (ps : List Int) (p : Int) (hp : p ∈ ps)
    (h : p < 1 ∨ p > all.length) : selectPages objects all ps = none := by
  induction ps with
  | nil => simp at hp
  | cons q ps ih =>
    rw [selectPages]
    rcases List.mem_cons.1 hp with e | hp
    · subst e; rw [if_pos h]
    · split
      · rfl
      · rw [ih hp]
        simp only [Option.map_none]
        cases all[q.toNat - 1]? with
        | none => rfl
        | some n => simp only [Option.bind_some]; cases objects.get n <;> rfl

/-- C63: otherwise the selected pages are taken in the order asked for. -/
theorem C63_selection (objects : Map Int Bytes) (all : List Int) (ps : List Int) (sel : List (Int × Bytes))
    (h : selectPages objects all ps = some sel) :
    sel.map (·.1) = ps.filterMap (fun p => all[p.toNat - 1]?) ∧ sel.length = ps.length ∧
      ∀ e ∈ sel, objects.get e.1 = some e.2 := by
  induction ps generalizing sel with
  | nil => simp [selectPages] at h; subst h; simp
  | cons p ps ih =>
    rw [selectPages] at h
    split at h
    · simp at h
    · cases ha : all[p.toNat - 1]? with
      | none => rw [ha] at h; simp at h
      | some n =>
        cases ho : objects.get n with
        | none => rw [ha] at h; simp [ho] at h
        | some s =>
          cases hr : selectPages objects all ps with
          | none => rw [ha] at h; simp [ho, hr] at h
          | some r =>
            rw [ha] at h
            simp [ho, hr] at h
            subst h
            obtain ⟨h1, h2, h3⟩ := ih r hr
            refine ⟨by simp [ha, h1], by simp [h2], ?_⟩
            intro e he
            rcases List.mem_cons.1 he with rfl | he
            · exact ho
            · exact h3 e he

example : selectPages manip3.objects [4, 5, 15] [3, 1] = some [(15, b!"15 0 obj\n<</Type/Page/Parent 3 0 R /Rotate 450 >>\nendobj"),
    (4, b!"4 0 obj\n<< /Type /Page /Parent 2 0 R /Rotate -90 >>\nendobj")] := by decide +kernel

example : ∃ a b, b!" 0 R/Contents 9 0 R>>" = a ++ b ∧
    setDictValue (b!"<</Type/Page" ++ b!"/Parent" ++ b!" " ++ natDec 3 ++ b!" 0 R/Contents 9 0 R>>") b!"/Parent" b!"1 0 R" =
      b!"<</Type/Page" ++ b!"/Parent" ++ b!" " ++ natDec 3 ++ a ++ b!"/Parent 1 0 R " ++ b :=
  C63_old_parent_violated _ _ _ 3 (notIn _ _ (by decide)) (by simp) (by simp [White])
    (by intro c hc; simp at hc; subst hc; simp [White]) (notIn _ _ (by decide +kernel)) (isIn _ _ (by decide))

/-! ### C64 Rebuild -/

/-- manipulate.go:36-50: an object is kept when GetObject answers one; a read error skips it. (A panic inside GetObject
would end the call; it is treated as a skip here, and no theorem below depends on that case.) -/
def okOf : Res Bytes → Option Bytes
  | .ok o => some o
  | _ => none

/-- C64: Rebuild hands every object of the opened file that can be read, edited or not, to the writer under its own
number. -/
theorem C64_objects_kept (env : Writer.Env) (get : Int → Option Bytes) (root : Bytes) (nums : List Int) (info enc : Bytes)
    (n : Int) (o : Bytes) (hn : n ∈ nums) (ho : get n = some o) :
    (Writer.run env (rebuildOps (newManip get root nums) info enc)).objects.get n =
      some { content := some o, stream := none, dict := none } :=
  rebuild_object env _ (newManip_nodup get root nums) info enc n o (by rw [newManip_get get root nums n hn, ho])

/-- C64 is violated: what the reader answers for an object outside object streams begins with the object's header and
ends with `endobj`; Rebuild hands this whole text to the writer as content, which wraps it in a second header. -/
theorem C64_nested_header_violated (env : Writer.Env) (ienv : Incremental.Env) (p : Incremental.Pdf) (root : Bytes)
    (nums : List Int) (info enc : Bytes) (n : Int) (off : Int) (o : Bytes) (heap : List Writer.Dict) (hn : n ∈ nums)
    (hd : p.refs.get n = some (.direct off)) (ho : Incremental.getObject ienv p n = .ok o) :
    ∃ (gen : Nat) (body : Bytes) (obj : Writer.Obj),
      (Writer.run env (rebuildOps (newManip (fun k => okOf (Incremental.getObject ienv p k)) root nums) info enc)).objects.get n
        = some obj ∧
      (Writer.objText env heap n obj).1 =
        itoa n ++ b!" 0 obj\n" ++ (itoa n ++ b!" " ++ natDec gen ++ b!" obj\n" ++ body ++ b!"endobj") ++ b!"\nendobj\n" := by
  have hg : okOf (Incremental.getObject ienv p n) = some o := by rw [ho]; rfl
  have h1 := C64_objects_kept env (fun k => okOf (Incremental.getObject ienv p k)) root nums info enc n o hn hg
  unfold Incremental.getObject at ho
  rw [hd] at ho
  simp only at ho
  unfold Incremental.getDirectObject at ho
  split at ho
  · simp at ho
  · simp only at ho
    cases hc : Incremental.objContent p.crypt n (Incremental.locate p.raw n off.toNat).2 (Incremental.locate p.raw n off.toNat).1 with
    | err => rw [hc] at ho; simp [Res.bind] at ho
    | panic => rw [hc] at ho; simp [Res.bind] at ho
    | ok c =>
      rw [hc] at ho
      simp only [Res.bind, Res.ok.injEq] at ho
      refine ⟨(Incremental.locate p.raw n off.toNat).2, c ++ (if (b!"\n").isSuffixOf c then [] else b!"\n"), _, h1, ?_⟩
      rw [← ho]
      simp [Writer.objText]

/-! ### C65 InsertPage -/

/-- C65: InsertPage puts the new reference at the asked position (`page` = 1 for the first; at the end for 0 or beyond
the end), keeps the order of the others, and `/Count` becomes the number of kids. Partial: `/Kids[` before `/Count N`,
each once. -/
theorem C65_insert_partial (a b c w1 w2 wc : Bytes) (nums : List Nat) (n cnt page : Nat) (h1 : ∀ x ∈ w1, White x)
    (h2 : ∀ x ∈ w2, White x) (hwc0 : wc ≠ []) (hwc : ∀ x ∈ wc, White x)
    (hc : ∀ d, c.head? = some d → d = 47 ∨ d = 62 ∨ White d)
    (hno : ∀ t ∈ [a, b, c], ¬ b!"/Kids" <:+: t ∧ ¬ b!"/Count" <:+: t) :
    ∃ front back : List Nat, nums = front ++ back ∧
      (if page = 0 ∨ page > nums.length then back = [] else front.length = page - 1) ∧
      insertText (a ++ b!"/Kids" ++ kidsArray w1 nums w2 ++ b ++ b!"/Count" ++ wc ++ natDec cnt ++ c) page n =
        some (a ++ b!"/Kids" ++ kidsArray [] (front ++ n :: back) b!" " ++ b!" " ++ b ++ b!"/Count " ++
          natDec (nums.length + 1) ++ c) := by
  have hc' : ∀ d, c.head? = some d → isDigit d = false ∧ d ∉ b!"Kids" := by
    intro d hd
    rcases hc d hd with h | h | h
    · subst h; decide
    · subst h; decide
    · rcases h with h | h | h | h | h <;> subst h <;> decide
  have := insert_kids_first (nums := nums) (a := a) (b := b) (c := c) (n := n) (cnt := cnt) (page := page) h1 h2 hwc0 hwc hc'
    (fun t ht => ⟨noOcc_iff_infix.2 (hno t ht).1, noOcc_iff_infix.2 (hno t ht).2⟩)
  simp only [List.append_assoc] at this ⊢
  by_cases hp : page = 0 ∨ page > nums.length
  · refine ⟨nums, [], by simp, by rw [if_pos hp], ?_⟩
    rw [this]
    simp only [if_pos hp]
    simp
  · refine ⟨nums.take (page - 1), nums.drop (page - 1), by simp, by rw [if_neg hp]; simp; omega, ?_⟩
    rw [this]
    simp only [if_neg hp]
    have hl : (nums.take (page - 1) ++ n :: nums.drop (page - 1)).length = nums.length + 1 := by simp; omega
    rw [hl]
    simp

example : insertText (b!"<</Type/Pages" ++ b!"/Kids" ++ kidsArray [] [5, 7] [] ++ [] ++ b!"/Count" ++ b!" " ++ natDec 2 ++
    b!"/Parent 1 0 R>>") 2 9 = some b!"<</Type/Pages/Kids[5 0 R 9 0 R 7 0 R ] /Count 3/Parent 1 0 R>>" := by decide +kernel

/-- C65 is violated for `/Kids [`: the rest of the old array stays behind. -/
theorem C65_spaced_violated : insertText b!"<< /Type /Pages /Kids [5 0 R 7 0 R] /Count 2 >>" 1 9 =
    some b!"<< /Type /Pages /Kids [9 0 R 5 0 R 7 0 R ] 0 R 7 0 R] /Count 3 >>" := by decide +kernel

/-- C65 is violated when the root of the page tree has inner nodes: the position counts kids of the root, not pages, and
`/Count` becomes the number of kids (here a tree of four pages ends up with /Count 3). -/
theorem C65_nested_violated : insertText b!"<</Type/Pages/Kids[4 0 R 3 0 R ]/Count 3>>" 3 9 =
    some b!"<</Type/Pages/Kids[4 0 R 3 0 R 9 0 R ] /Count 3>>" := by decide +kernel

end Pdfer.Props
