import Verif.Model.ManipAll
import Verif.Spec.PageDict
import Verif.Proofs.ExtractDict
import Verif.Props.Manipulate

/-! C130: DeletePages.  C131: RotateAllPages.  C132: InsertPage. -/

namespace Pdfer.Props

open Pdfer.Go Pdfer.Manipulate Pdfer.Spec.Manipulate Pdfer.Spec.PageDict

/-- The opened file has this page tree: the trailer names the catalog, which names the root of the tree. -/
def HasTree (m : Manip) (t : PTree) : Prop :=
  ∃ (r : Nat) (cat : Bytes), r ≤ 9223372036854775807 ∧ m.root = refText r ∧ m.get r = some cat ∧ RefIs cat b!"/Pages" t.num ∧ Holds m.get t

theorem pages_ref {cat : Bytes} {p : Nat} (hp : p ≤ 9223372036854775807) (h : RefIs cat b!"/Pages" p) :
    parseObjectRef (extractDictValue cat b!"/Pages") = some (p : Int) := by
  obtain ⟨w, rest, hw0, hw, pre, hpre, rfl⟩ := h
  have e : pre ++ b!"/Pages" ++ (w ++ refText p ++ rest) = pre ++ ((47 :: b!"Pages") ++ (w ++ (natDec p ++ (b!" 0 R" ++ rest)))) := by simp [refText]
  have ht : Token (natDec p) := itoa_token (p : Int)
  rw [e, extract_value (c := 47) (k := b!"Pages") (by decide) (noOcc_iff_infix.2 hpre) hw0 hw ht (by
    intro c hc; simp at hc; subst hc; exact .inl (.inl rfl))]
  exact Extract.parse_natDec hp

theorem tree_pages {m : Manip} {t : PTree} (h : HasTree m t) :
    ∃ F, ∀ fuel, F ≤ fuel → allPages m.get m.root fuel = some (some (t.pages.map Int.ofNat)) := by
  obtain ⟨r, cat, hr, h1, h2, h3, h4⟩ := h
  obtain ⟨F, hF⟩ := pageNums_tree h4
  refine ⟨F, fun fuel hf => ?_⟩
  unfold allPages
  rw [h1, parseObjectRef_refText r hr]
  simp only [h2]
  rw [pages_ref (holds_le h4) h3]
  exact hF fuel hf

/-- A page tree of one node. -/
def flatTree (p : Nat) (nums : List Nat) : PTree := .node p (nums.map .page)

theorem flat_pages (p : Nat) (nums : List Nat) : (flatTree p nums).pages = nums := by
  rw [flatTree, pages_node]
  induction nums with
  | nil => rfl
  | cons n ns ih => simp [PTree.pages, ih]

theorem find_flat {get : Int → Option Bytes} {p : Nat} {nums : List Nat} (h : Holds get (flatTree p nums)) {n : Nat} (hn : n ∈ nums) (f : Nat) :
    findParent get (f + 1) p n = some (some (p : Int)) := by
  unfold flatTree at h
  cases h with
  | node _ _ s hp hg hs hk =>
    simp only [findParent, hg]
    rw [if_neg (by rw [node_type hs]; decide), if_neg (node_kids hs).2, (node_kids hs).1]
    have hnums : (nums.map PTree.page).map PTree.num = nums := by
      rw [List.map_map]
      have : PTree.num ∘ PTree.page = id := rfl
      rw [this, List.map_id]
    rw [hnums]
    have hk' : ∀ k ∈ nums, Holds get (.page k) := fun k hk0 => hk _ (List.mem_map.2 ⟨k, hk0, rfl⟩)
    clear hnums hk hs
    induction nums with
    | nil => simp at hn
    | cons k ks ih =>
      rw [List.map_cons, List.foldr_cons, parseObjectRef_refText k (holds_le (hk' k (by simp)))]
      simp only
      by_cases hkn : k = n
      · subst hkn; simp
      · rw [if_neg (by omega)]
        have hgk := hk' k (by simp)
        cases hgk with
        | page _ t _ ht hpt =>
          simp only [ht]
          rw [if_neg (by rw [page_type hpt]; decide)]
          exact ih (by simpa [Ne.symm hkn] using hn) (fun x hx => hk' x (by simp [hx]))

theorem delete_step {m : Manip} {p : Nat} {nums : List Nat} (h : HasTree m (flatTree p nums)) :
    ∃ F, ∀ fuel, F ≤ fuel → ∀ (m' : Manip), m'.get = m.get → m'.root = m.root → ∀ (i : Nat) (n : Nat), nums[i]? = some n →
      ∀ s, m'.objects.get p = some s → deletePage m' fuel ((i : Int) + 1) = some ((deleteText s n).map fun t => { m' with objects := m'.objects.set p t }) := by
  obtain ⟨F, hF⟩ := tree_pages h
  rw [flat_pages] at hF
  refine ⟨F + 1, fun fuel hf m' hg hr i n hi s hs => ?_⟩
  have hlen : i < nums.length := (List.getElem?_eq_some_iff.1 hi).1
  obtain ⟨r, cat, hrn, h1, h2, h3, h4⟩ := h
  unfold deletePage pageObject
  rw [hg, hr, hF fuel (by omega)]
  simp only [Option.map_some, Option.bind_some]
  rw [if_neg (by simp; omega)]
  have : ((i : Int) + 1).toNat - 1 = i := by omega
  rw [this, List.getElem?_map, hi]
  simp only [Option.map_some]
  rw [h1, parseObjectRef_refText r hrn]
  simp only [h2]
  rw [pages_ref (holds_le h4) h3]
  simp only
  obtain ⟨f, rfl⟩ : ∃ f, fuel = f + 1 := ⟨fuel - 1, by omega⟩
  have e : findParent m.get (f + 1) ((flatTree p nums).num : Int) (Int.ofNat n) = some (some (p : Int)) := find_flat h4 (List.mem_of_getElem? hi) f
  rw [e]
  simp only [hs, Option.bind_some]
  rfl

/-- The kids of the node after pages with these numbers were deleted. -/
def keptPages (nums : List Nat) (pages : List Int) : List Nat := ((nums.zipIdx 1).filter fun e => decide ((e.2 : Int) ∉ pages)).map (·.1)

theorem filter_zip (P : Nat → Bool) (Q : Nat → Bool) : ∀ (l : List Nat) (k : Nat), (∀ i x, l[i]? = some x → P x = Q (k + i)) →
    l.filter P = ((l.zipIdx k).filter fun e => Q e.2).map (·.1)
  | [], _, _ => rfl
  | x :: xs, k, h => by
    have h0 := h 0 x rfl
    have ih := filter_zip P Q xs (k + 1) (fun i y hy => by rw [h (i + 1) y hy]; congr 1; omega)
    rw [List.zipIdx_cons, List.filter_cons, List.filter_cons, ih, h0]
    simp only [Nat.add_zero]
    split <;> simp

theorem delete_loop {m0 : Manip} {p : Nat} {nums : List Nat} (h : HasTree m0 (flatTree p nums)) (hnd : nums.Nodup)
    (hsuf : ∀ n ∈ nums, ∀ k ∈ nums, natDec n <:+ natDec k → k = n) (hlen : nums.length ≤ 9223372036854775807) {a c : Bytes} (hc : Ends c)
    (ha : ¬ b!"/Kids" <:+: a ∧ ¬ b!"/Count" <:+: a) (hcc : ¬ b!"/Kids" <:+: c ∧ ¬ b!"/Count" <:+: c) :
    ∃ F, ∀ fuel, F ≤ fuel → ∀ (is : List Nat) (m : Manip) (cur : List Nat) (w1 w2 b wc : Bytes) (cnt : Nat), m.get = m0.get → m.root = m0.root →
      (∀ x ∈ w1, White x) → (∀ x ∈ w2, White x) → wc ≠ [] → (∀ x ∈ wc, White x) → (¬ b!"/Kids" <:+: b ∧ ¬ b!"/Count" <:+: b) →
      m.objects.get p = some (a ++ b!"/Kids" ++ kidsArray w1 cur w2 ++ b ++ b!"/Count" ++ wc ++ natDec cnt ++ c) →
      cur.Sublist nums → is.Nodup → (∀ i ∈ is, ∃ n, nums[i]? = some n ∧ n ∈ cur) → is.length < cur.length →
      ∃ m', deleteLoop fuel m (is.map fun i : Nat => (i : Int) + 1) = some (m', true) ∧
        (is ≠ [] → m'.objects.get p = some (a ++ b!"/Kids" ++ kidsArray [] (cur.filter fun n => decide (∀ i ∈ is, nums[i]? ≠ some n)) b!" " ++
          List.replicate is.length 32 ++ b ++ b!"/Count " ++ natDec (cur.length - is.length - 1) ++ c)) ∧
        (∀ k, k ≠ (p : Int) → m'.objects.get k = m.objects.get k) := by
  obtain ⟨F, hF⟩ := delete_step h
  refine ⟨F, fun fuel hf is => ?_⟩
  induction is with
  | nil =>
    intro m cur w1 w2 b wc cnt hg hr h1 h2 hw0 hw hb ho hsub hnd' hin hlt
    exact ⟨m, rfl, fun h => absurd rfl h, fun _ _ => rfl⟩
  | cons i is ih =>
    intro m cur w1 w2 b wc cnt hg hr h1 h2 hw0 hw hb ho hsub hnd' hin hlt
    obtain ⟨n, hi, hn⟩ := hin i (by simp)
    have hcur : cur.Nodup := hsub.nodup hnd
    have hleft : leftAfter n cur = cur.filter (· ≠ n) :=
      C38_kids_left_partial n cur (fun k hk hs => hsuf n (hsub.subset hn) k (hsub.subset hk) hs)
    have herase : cur.filter (· ≠ n) = cur.erase n := by
      rw [hcur.erase_eq_filter]
      apply List.filter_congr
      intro k _
      by_cases e : k = n <;> simp [e]
    have hl : (cur.erase n).length = cur.length - 1 := by rw [List.length_erase, if_pos (by simpa using hn)]
    have hno : ¬ ((cur.erase n).length = cur.length ∨ cur.erase n = []) := by
      simp only [List.length_cons] at hlt
      rintro (h | h)
      · omega
      · rw [h] at hl; simp at hl; omega
    have hstep := hF fuel hf m hg hr i n hi _ ho
    rw [C38_delete_partial a b c w1 w2 wc cur n cnt h1 h2 hw0 hw hc (by
        intro t ht
        simp only [List.mem_cons, List.not_mem_nil, or_false] at ht
        rcases ht with rfl | rfl | rfl
        · exact ha
        · exact hb
        · exact hcc) (Nat.le_trans hsub.length_le hlen), hleft, herase, if_neg hno, Option.map_some] at hstep
    have hb' : ¬ b!"/Kids" <:+: (32 :: b) ∧ ¬ b!"/Count" <:+: (32 :: b) := by
      have key : ∀ k : Bytes, ¬ (47 :: k) <:+: b → ¬ (47 :: k) <:+: (32 :: b) := by
        intro k hk hin
        rcases List.infix_cons_iff.1 hin with hin | hin
        · obtain ⟨t, ht⟩ := hin
          simp at ht
        · exact hk hin
      exact ⟨key _ hb.1, key _ hb.2⟩
    have hsp : ∀ x ∈ b!" ", White x := by intro x hx; simp at hx; subst hx; simp [White]
    obtain ⟨hni, hnd''⟩ := List.nodup_cons.1 hnd'
    obtain ⟨m', e1, e2, e3⟩ := ih { m with objects := m.objects.set p (a ++ b!"/Kids" ++ kidsArray [] (cur.erase n) b!" " ++ b!" " ++ b ++ b!"/Count " ++
        natDec ((cur.erase n).length - 1) ++ c) } (cur.erase n) [] b!" " (32 :: b) b!" " ((cur.erase n).length - 1) hg hr (by simp) hsp (by simp) hsp hb'
      (by rw [Map.get_set_eq]; simp) (List.erase_sublist.trans hsub) hnd''
      (by
        intro j hj
        obtain ⟨k, hk, hkc⟩ := hin j (by simp [hj])
        refine ⟨k, hk, (List.mem_erase_of_ne ?_).2 hkc⟩
        rintro rfl
        have hj' := (List.getElem?_eq_some_iff.1 hk)
        have hi' := (List.getElem?_eq_some_iff.1 hi)
        have : i = j := (List.getElem_inj hnd).1 (hi'.2.trans hj'.2.symm)
        exact hni (this ▸ hj))
      (by simp only [List.length_cons] at hlt; omega)
    have hfil : (cur.erase n).filter (fun x => decide (∀ j ∈ is, nums[j]? ≠ some x)) = cur.filter fun x => decide (∀ j ∈ i :: is, nums[j]? ≠ some x) := by
      rw [← herase, List.filter_filter]
      apply List.filter_congr
      intro k _
      have : (nums[i]? ≠ some k) ↔ k ≠ n := by rw [hi]; simp [eq_comm]
      by_cases e : k = n
      · subst e; simp [hi]
      · simp [hi, e, Ne.symm e]
    refine ⟨m', ?_, ?_, ?_⟩
    · rw [List.map_cons, deleteLoop, hstep]
      exact e1
    · intro _
      by_cases hnil : is = []
      · subst hnil
        simp only [List.map_nil, deleteLoop, Option.some.injEq, Prod.mk.injEq, and_true] at e1
        rw [← e1]
        simp only [Map.get_set_eq]
        rw [← hfil]
        simp [hl]
      · rw [e2 hnil, hfil]
        have : cur.length - (is.length + 1) - 1 = (cur.erase n).length - is.length - 1 := by omega
        simp only [List.length_cons, this]
        simp [List.replicate_succ]
        have : ∀ (k : Nat) (t : Bytes), List.replicate k (32 : UInt8) ++ 32 :: t = 32 :: (List.replicate k 32 ++ t) := by
          intro k t
          induction k with
          | zero => rfl
          | succ k ih => simp [List.replicate_succ, ih]
        rw [this]
    · intro k hk
      rw [e3 k hk]
      exact Map.get_set_ne _ _ hk

/-! ### C130 -/

/-- C130: in a document whose pages hang under one node, DeletePages with different numbers of existing pages, but not of all, removes exactly
these pages, whatever the order of the numbers: page numbers mean the pages of the opened file throughout.  All other objects stay.
Partial: the conditions of C38 on the text of the node; /Count is one too small, as C38 shows. -/
theorem C130_delete_partial (m : Manip) (p : Nat) (nums : List Nat) (h : HasTree m (flatTree p nums)) (hnd : nums.Nodup)
    (hsuf : ∀ n ∈ nums, ∀ k ∈ nums, natDec n <:+ natDec k → k = n) (hlen : nums.length ≤ 9223372036854775807) (a b c w1 w2 wc : Bytes) (cnt : Nat)
    (h1 : ∀ x ∈ w1, White x) (h2 : ∀ x ∈ w2, White x) (hw0 : wc ≠ []) (hw : ∀ x ∈ wc, White x) (hc : Ends c)
    (hno : ∀ t ∈ [a, b, c], ¬ b!"/Kids" <:+: t ∧ ¬ b!"/Count" <:+: t)
    (hs : m.objects.get p = some (a ++ b!"/Kids" ++ kidsArray w1 nums w2 ++ b ++ b!"/Count" ++ wc ++ natDec cnt ++ c)) :
    ∃ F, ∀ fuel, F ≤ fuel → ∀ pages : List Int, pages ≠ [] → pages.Nodup → (∀ x ∈ pages, 1 ≤ x ∧ x ≤ nums.length) → pages.length < nums.length →
      ∃ m', deletePages m fuel pages = some (m', true) ∧
        m'.objects.get p = some (a ++ b!"/Kids" ++ kidsArray [] (keptPages nums pages) b!" " ++ List.replicate pages.length 32 ++ b ++ b!"/Count " ++
          natDec (nums.length - pages.length - 1) ++ c) ∧
        ∀ k, k ≠ (p : Int) → m'.objects.get k = m.objects.get k := by
  obtain ⟨F, hF⟩ := delete_loop h hnd hsuf hlen hc (hno a (by simp)) (hno c (by simp))
  refine ⟨F, fun fuel hf pages hp0 hpn hpr hpl => ?_⟩
  have hback : (pages.reverse.map fun x => x.toNat - 1).map (fun i : Nat => (i : Int) + 1) = pages.reverse := by
    rw [List.map_map]
    refine (List.map_congr_left ?_).trans (List.map_id _)
    intro x hx
    have := hpr x (by simpa using hx)
    simp only [Function.comp_apply, id_eq]
    omega
  obtain ⟨m', e1, e2, e3⟩ := hF fuel hf (pages.reverse.map fun x => x.toNat - 1) m nums w1 w2 b wc cnt rfl rfl h1 h2 hw0 hw (hno b (by simp)) hs
    (List.Sublist.refl _)
    (by
      refine List.Nodup.of_map (fun i : Nat => (i : Int) + 1) ?_
      rw [hback]
      exact List.nodup_reverse.2 hpn)
    (by
      intro i hi
      obtain ⟨x, hx, rfl⟩ := List.mem_map.1 hi
      have := hpr x (by simpa using hx)
      have hl : x.toNat - 1 < nums.length := by omega
      exact ⟨nums[x.toNat - 1], List.getElem?_eq_getElem hl, List.getElem_mem hl⟩)
    (by simpa using hpl)
  refine ⟨m', ?_, ?_, e3⟩
  · unfold deletePages
    rw [hback] at e1
    exact e1
  · rw [e2 (by simpa using hp0)]
    have hk : (nums.filter fun n => decide (∀ i ∈ pages.reverse.map (fun x => x.toNat - 1), nums[i]? ≠ some n)) = keptPages nums pages := by
      unfold keptPages
      refine filter_zip _ (fun i => decide ((i : Int) ∉ pages)) nums 1 ?_
      intro i x hi
      have hi' := List.getElem?_eq_some_iff.1 hi
      apply decide_eq_decide.2
      constructor
      · intro hall hm
        exact hall i (List.mem_map.2 ⟨_, List.mem_reverse.2 hm, by omega⟩) hi
      · intro hm j hj hjx
        obtain ⟨y, hy, rfl⟩ := List.mem_map.1 hj
        have hj' := List.getElem?_eq_some_iff.1 hjx
        have hij : i = y.toNat - 1 := (List.getElem_inj hnd).1 (hi'.2.trans hj'.2.symm)
        have hy' := List.mem_reverse.1 hy
        have hr := hpr y hy'
        apply hm
        have : ((1 + i : Nat) : Int) = y := by omega
        rw [this]
        exact hy'
    rw [hk]
    simp

/-- C130: so the order of the numbers does not matter. -/
theorem C130_order_partial (m : Manip) (p : Nat) (nums : List Nat) (h : HasTree m (flatTree p nums)) (hnd : nums.Nodup)
    (hsuf : ∀ n ∈ nums, ∀ k ∈ nums, natDec n <:+ natDec k → k = n) (hlen : nums.length ≤ 9223372036854775807) (a b c w1 w2 wc : Bytes) (cnt : Nat)
    (h1 : ∀ x ∈ w1, White x) (h2 : ∀ x ∈ w2, White x) (hw0 : wc ≠ []) (hw : ∀ x ∈ wc, White x) (hc : Ends c)
    (hno : ∀ t ∈ [a, b, c], ¬ b!"/Kids" <:+: t ∧ ¬ b!"/Count" <:+: t)
    (hs : m.objects.get p = some (a ++ b!"/Kids" ++ kidsArray w1 nums w2 ++ b ++ b!"/Count" ++ wc ++ natDec cnt ++ c)) :
    ∃ F, ∀ fuel, F ≤ fuel → ∀ pages pages' : List Int, pages ≠ [] → pages.Nodup → (∀ x ∈ pages, 1 ≤ x ∧ x ≤ nums.length) →
      pages.length < nums.length → pages.Perm pages' →
      ∃ m1 m2, deletePages m fuel pages = some (m1, true) ∧ deletePages m fuel pages' = some (m2, true) ∧ ∀ k, m1.objects.get k = m2.objects.get k := by
  obtain ⟨F, hF⟩ := C130_delete_partial m p nums h hnd hsuf hlen a b c w1 w2 wc cnt h1 h2 hw0 hw hc hno hs
  refine ⟨F, fun fuel hf pages pages' hp0 hpn hpr hpl hperm => ?_⟩
  obtain ⟨m1, e1, f1, g1⟩ := hF fuel hf pages hp0 hpn hpr hpl
  obtain ⟨m2, e2, f2, g2⟩ := hF fuel hf pages' (by rintro rfl; exact hp0 hperm.eq_nil) (hperm.nodup_iff.1 hpn) (fun x hx => hpr x (hperm.mem_iff.2 hx))
    (by rw [← hperm.length_eq]; exact hpl)
  refine ⟨m1, m2, e1, e2, fun k => ?_⟩
  have hk : keptPages nums pages = keptPages nums pages' := by
    unfold keptPages
    congr 1
    apply List.filter_congr
    intro e _
    exact decide_eq_decide.2 (not_congr hperm.mem_iff)
  by_cases e : k = (p : Int)
  · subst e
    rw [f1, f2, hk, hperm.length_eq]
  · rw [g1 k e, g2 k e]

/-- For examples: a document of four pages under one node. -/
def file4 : Int → Option Bytes := fun n =>
  if n = 1 then some b!"1 0 obj\n<</Type/Catalog/Pages 2 0 R>>\nendobj"
  else if n = 2 then some b!"2 0 obj\n<</Type/Pages/Kids[3 0 R 4 0 R 5 0 R 6 0 R]/Count 4>>\nendobj"
  else if 3 ≤ n ∧ n ≤ 6 then some (itoa n ++ b!" 0 obj\n<</Type/Page/Parent 2 0 R>>\nendobj")
  else none

/-- For examples: a manipulator on it. -/
def manip4 : Manip := newManip file4 b!"1 0 R" [1, 2, 3, 4, 5, 6]

theorem manip4_tree : HasTree manip4 (flatTree 2 [3, 4, 5, 6]) := by
  have hpage : ∀ n : Nat, n ∈ [3, 4, 5, 6] → Holds file4 (.page n) := by
    intro n hn
    have : n = 3 ∨ n = 4 ∨ n = 5 ∨ n = 6 := by simpa using hn
    have hg : file4 n = some (itoa n ++ b!" 0 obj\n<</Type/Page/Parent 2 0 R>>\nendobj") := by
      rcases this with rfl | rfl | rfl | rfl <;> rfl
    refine .page n _ (by omega) hg (.inr ⟨b!"/Parent 2 0 R>>\nendobj", ?_, ⟨itoa n ++ b!" 0 obj\n<<", ?_, by simp⟩, ?_⟩)
    · intro c hc; simp at hc; subst hc; simp
    · rcases this with rfl | rfl | rfl | rfl <;> exact notIn _ _ (by decide +kernel)
    · rcases this with rfl | rfl | rfl | rfl <;> exact noSpaced_of _ _ (by decide +kernel)
  refine ⟨1, _, by decide, by decide, rfl, ⟨b!" ", b!">>\nendobj", by simp, by intro c hc; simp at hc; subst hc; simp [White],
    b!"1 0 obj\n<</Type/Catalog", notIn _ _ (by decide), by decide⟩, ?_⟩
  refine .node 2 _ _ (by decide) rfl ⟨.inr ⟨b!"/Kids[3 0 R 4 0 R 5 0 R 6 0 R]/Count 4>>\nendobj", ?_, ⟨b!"2 0 obj\n<<", notIn _ _ (by decide), by decide⟩,
    noSpaced_of _ _ (by decide +kernel)⟩, ⟨[], [], [], b!"/Count 4>>\nendobj", by simp, by simp, by simp, b!"2 0 obj\n<</Type/Pages", notIn _ _ (by decide), by decide⟩⟩ ?_
  · intro c hc; simp at hc; subst hc; simp
  · intro k hk
    obtain ⟨n, hn, rfl⟩ := List.mem_map.1 hk
    exact hpage n hn

/-- For examples: what the node says after DeletePages, and whether all went well. -/
def nodeAfter (pages : List Int) : Option (Option Bytes × Bool) := (deletePages manip4 9 pages).map fun r => (r.1.objects.get 2, r.2)

/-- The hypotheses of `C130_delete_partial` hold for it; both orders leave pages 3 and 5. -/
example : (∃ F, ∀ fuel, F ≤ fuel → ∃ m', deletePages manip4 fuel [2, 4] = some (m', true) ∧
      m'.objects.get 2 = some b!"2 0 obj\n<</Type/Pages/Kids[3 0 R 5 0 R ]  /Count 1>>\nendobj") ∧
    nodeAfter [2, 4] = nodeAfter [4, 2] := by
  constructor
  · obtain ⟨F, hF⟩ := C130_delete_partial manip4 2 [3, 4, 5, 6] manip4_tree (by decide) (by decide +kernel) (by decide) b!"2 0 obj\n<</Type/Pages" []
      b!">>\nendobj" [] [] b!" " 4 (by simp) (by simp) (by simp) (by intro c hc; simp at hc; subst hc; simp [White])
      (by intro c hc; simp at hc; subst hc; simp) (by
        intro t ht
        simp only [List.mem_cons, List.not_mem_nil, or_false] at ht
        rcases ht with rfl | rfl | rfl <;> exact ⟨notIn _ _ (by decide), notIn _ _ (by decide)⟩) (by decide +kernel)
    refine ⟨F, fun fuel hf => ?_⟩
    obtain ⟨m', e1, e2, -⟩ := hF fuel hf [2, 4] (by decide) (by decide) (by decide) (by decide)
    exact ⟨m', e1, e2.trans (by decide +kernel)⟩
  · decide +kernel

/-- C130 is violated: the numbers are taken from the end, and when one is wrong — here 9, or a page named twice, or all pages — the pages
before it are gone although the call fails. -/
theorem C130_not_atomic_violated :
    nodeAfter [9, 1] = some (some b!"2 0 obj\n<</Type/Pages/Kids[4 0 R 5 0 R 6 0 R ] /Count 2>>\nendobj", false) ∧
    nodeAfter [1, 1] = some (some b!"2 0 obj\n<</Type/Pages/Kids[4 0 R 5 0 R 6 0 R ] /Count 2>>\nendobj", false) ∧
    nodeAfter [1, 2, 3, 4] = some (some b!"2 0 obj\n<</Type/Pages/Kids[3 0 R ]   /Count 0>>\nendobj", false) := by decide +kernel

/-! ### C131 -/

/-- C131: RotateAllPages by a quarter turn on a document with any page tree whose pages are different objects: every page is turned by exactly
this angle, and no other object changes.  Partial: the conditions of C36 on the texts of the pages. -/
theorem C131_rotate_all_partial (m : Manip) (t : PTree) (h : HasTree m t) (hnd : t.pages.Nodup) (angle : Int) (ha : angle = 90 ∨ angle = 180 ∨ angle = 270)
    (text : Nat → Bytes) (rot : Nat → Int) (hp : ∀ n ∈ t.pages, m.objects.get n = some (text n) ∧ RotationIs (text n) (rot n) ∧
      (¬ b!"/Rotate" <:+: text n → b!">>" <:+: text n) ∧ -9223372036854775808 ≤ rot n ∧ rot n + 270 ≤ 9223372036854775807) :
    ∃ F, ∀ fuel, F ≤ fuel → ∃ m', rotateAllPages m fuel angle = some (m', true) ∧
      (∀ n ∈ t.pages, ∃ s, m'.objects.get n = some s ∧ RotationIs s ((rot n + angle) % 360)) ∧
      ∀ k : Int, (∀ n ∈ t.pages, k ≠ n) → m'.objects.get k = m.objects.get k := by
  obtain ⟨F, hF⟩ := tree_pages h
  refine ⟨F, fun fuel hf => ?_⟩
  have hall := hF fuel hf
  generalize t.pages = nums at *
  have loop : ∀ (k i : Nat) (m' : Manip), i + k = nums.length → m'.get = m.get → m'.root = m.root →
      (∀ j n, i ≤ j → nums[j]? = some n → m'.objects.get n = some (text n)) →
      ∃ m'', rotateLoop fuel angle k i m' = some (m'', true) ∧
        (∀ j n, i ≤ j → nums[j]? = some n → ∃ s, m''.objects.get n = some s ∧ RotationIs s ((rot n + angle) % 360)) ∧
        ∀ x : Int, (∀ j n, i ≤ j → nums[j]? = some n → x ≠ (n : Int)) → m''.objects.get x = m'.objects.get x := by
    intro k
    induction k with
    | zero =>
      intro i m' hik hg hr ho
      refine ⟨m', rfl, ?_, fun _ _ => rfl⟩
      intro j n hij hj
      have := (List.getElem?_eq_some_iff.1 hj).1
      omega
    | succ k ih =>
      intro i m' hik hg hr ho
      have hi : i < nums.length := by omega
      have hin : nums[i]? = some nums[i] := List.getElem?_eq_getElem hi
      obtain ⟨q1, q2, q3, q4, q5⟩ := hp nums[i] (List.getElem_mem hi)
      have hpage : pageObject m' fuel ((i : Int) + 1) = some (some ((nums[i] : Nat) : Int)) := by
        unfold pageObject
        rw [hg, hr, hall]
        simp only [Option.map_some, Option.bind_some]
        rw [if_neg (by simp; omega)]
        have : ((i : Int) + 1).toNat - 1 = i := by omega
        rw [this, List.getElem?_map, hin]
        rfl
      obtain ⟨m1, s1, r1, r2, r3, r4, r5⟩ := C36_rotations_partial m' fuel ((i : Int) + 1) nums[i] (text nums[i]) (rot nums[i]) [angle] hpage
        (ho i _ (Nat.le_refl _) hin) q2 q3 q4 q5 (by simpa using ha)
      have hrot : rotatePage m' fuel ((i : Int) + 1) angle = some (some m1) := by
        simp only [rotateSeq] at r1
        revert r1
        cases rotatePage m' fuel ((i : Int) + 1) angle with
        | none => simp
        | some o => cases o <;> simp
      have hsame : m1.get = m'.get ∧ m1.root = m'.root := by
        unfold rotatePage at hrot
        rw [if_neg (by omega), hpage] at hrot
        simp only [Option.map_some, Option.bind_some, Option.some.injEq] at hrot
        rw [ho i _ (Nat.le_refl _) hin] at hrot
        simp only [Option.map_some, Option.some.injEq] at hrot
        rw [← hrot]
        exact ⟨rfl, rfl⟩
      have hne : ∀ j n, i + 1 ≤ j → nums[j]? = some n → (n : Int) ≠ (nums[i] : Nat) := by
        intro j n hij hj hc
        have hj' := List.getElem?_eq_some_iff.1 hj
        have : j = i := (List.getElem_inj hnd).1 (hj'.2.trans (by omega))
        omega
      obtain ⟨m2, u1, u2, u3⟩ := ih (i + 1) m1 (by omega) (hsame.1.trans hg) (hsame.2.trans hr) (by
        intro j n hij hj
        rw [r4 _ (hne j n hij hj)]
        exact ho j n (by omega) hj)
      refine ⟨m2, ?_, ?_, ?_⟩
      · rw [rotateLoop, hrot]
        exact u1
      · intro j n hij hj
        by_cases e : j = i
        · subst e
          rw [hin] at hj
          cases hj
          refine ⟨s1, ?_, by simpa using r3⟩
          rw [u3 _ (fun j' n' hj1 hj2 => Ne.symm (hne j' n' hj1 hj2)), r2]
        · exact u2 j n (by omega) hj
      · intro x hx
        rw [u3 x (fun j n hj1 hj2 => hx j n (by omega) hj2), r4 x (hx i _ (Nat.le_refl _) hin)]
  obtain ⟨m', e1, e2, e3⟩ := loop nums.length 0 m (by omega) rfl rfl (fun j n _ hj => (hp n (List.mem_of_getElem? hj)).1)
  refine ⟨m', ?_, ?_, ?_⟩
  · unfold rotateAllPages
    rw [hall]
    simpa using e1
  · intro n hn
    obtain ⟨j, hj⟩ := List.getElem?_of_mem hn
    exact e2 j n (Nat.zero_le _) hj
  · intro k hk
    exact e3 k (fun j n _ hj => hk n (List.mem_of_getElem? hj))

/-- The hypotheses of `C131_rotate_all_partial` hold for the document of four pages. -/
example : ∃ F, ∀ fuel, F ≤ fuel → ∃ m', rotateAllPages manip4 fuel 90 = some (m', true) ∧ ∃ s, m'.objects.get 5 = some s ∧ RotationIs s 90 := by
  obtain ⟨F, hF⟩ := C131_rotate_all_partial manip4 _ manip4_tree (by rw [flat_pages]; decide) 90 (.inl rfl)
    (fun n => itoa n ++ b!" 0 obj\n<</Type/Page/Parent 2 0 R>>\nendobj") (fun _ => 0) (by
      rw [flat_pages]
      intro n hn
      have : n = 3 ∨ n = 4 ∨ n = 5 ∨ n = 6 := by simpa using hn
      rcases this with rfl | rfl | rfl | rfl <;>
        exact ⟨by decide +kernel, .absent _ (notIn _ _ (by decide +kernel)), fun _ => isIn _ _ (by decide +kernel), by decide, by decide⟩)
  refine ⟨F, fun fuel hf => ?_⟩
  obtain ⟨m', e1, e2, -⟩ := hF fuel hf
  obtain ⟨s, h1, h2⟩ := e2 5 (by rw [flat_pages]; simp)
  exact ⟨m', e1, s, h1, by simpa using h2⟩

/-- C131 is violated: a page that is listed twice in the tree is turned twice; and an angle that RotatePage rejects is no error when the document
has no page. -/
theorem C131_listed_twice_violated :
    ((rotateAllPages (newManip (fun n => if n = 1 then some b!"<</Pages 2 0 R>>" else if n = 2 then some b!"<</Type/Pages/Kids[3 0 R 3 0 R]>>"
      else if n = 3 then some b!"<</Type/Page>>" else none) b!"1 0 R" [1, 2, 3]) 9 90).map fun r => (r.1.objects.get 3, r.2)) =
      some (some b!"<</Type/Page/Rotate 180 >>", true) ∧
    ((rotateAllPages (newManip (fun n => if n = 1 then some b!"<</Pages 2 0 R>>" else if n = 2 then some b!"<</Type/Pages/Kids[]>>"
      else none) b!"1 0 R" [1, 2]) 9 45).map (·.2)) = some true := by decide +kernel

/-! ### C132 -/

/-- C132: InsertPage on a document whose pages hang under one node: the content is stored under the given number, the node gets the reference at
the asked position (at the end for 0 and for one behind the last), and no other object changes.  Partial: the conditions of C65 on the
text of the node; the number is not that of the node. -/
theorem C132_insert_partial (m : Manip) (p : Nat) (nums : List Nat) (h : HasTree m (flatTree p nums)) (a b c w1 w2 wc : Bytes) (cnt : Nat)
    (h1 : ∀ x ∈ w1, White x) (h2 : ∀ x ∈ w2, White x) (hw0 : wc ≠ []) (hw : ∀ x ∈ wc, White x)
    (hc : ∀ d, c.head? = some d → d = 47 ∨ d = 62 ∨ White d)
    (hno : ∀ t ∈ [a, b, c], ¬ b!"/Kids" <:+: t ∧ ¬ b!"/Count" <:+: t)
    (hs : m.objects.get p = some (a ++ b!"/Kids" ++ kidsArray w1 nums w2 ++ b ++ b!"/Count" ++ wc ++ natDec cnt ++ c)) :
    ∃ F, ∀ fuel, F ≤ fuel → ∀ (page n : Nat) (content : Bytes), page ≤ nums.length + 1 → n ≠ p →
      ∃ m' front back, insertPage m fuel page n content = some (some m') ∧ nums = front ++ back ∧
        (if page = 0 ∨ page > nums.length then back = [] else front.length = page - 1) ∧
        m'.objects.get n = some content ∧
        m'.objects.get p = some (a ++ b!"/Kids" ++ kidsArray [] (front ++ n :: back) b!" " ++ b!" " ++ b ++ b!"/Count " ++ natDec (nums.length + 1) ++ c) ∧
        ∀ k : Int, k ≠ p → k ≠ n → m'.objects.get k = m.objects.get k := by
  obtain ⟨F, hF⟩ := tree_pages h
  rw [flat_pages] at hF
  refine ⟨F, fun fuel hf page n content hpage hnp => ?_⟩
  obtain ⟨front, back, f1, f2, f3⟩ := C65_insert_partial a b c w1 w2 wc nums n cnt page h1 h2 hw0 hw hc hno
  obtain ⟨r, cat, hrn, g1, g2, g3, g4⟩ := h
  have hroot : rootPages m = some (p : Int) := by
    unfold rootPages
    rw [g1, parseObjectRef_refText r hrn]
    simp only [Option.bind_some, g2]
    exact pages_ref (holds_le g4) g3
  have e : insertPage m fuel page n content = some (some
      { m with objects := Map.set (Map.set m.objects n content) p (a ++ b!"/Kids" ++ kidsArray [] (front ++ n :: back) b!" " ++ b!" " ++ b ++ b!"/Count " ++ natDec (nums.length + 1) ++ c) }) := by
    unfold insertPage
    rw [hF fuel hf]
    simp only [Option.map_some, Option.bind_some]
    rw [if_neg (by simp; omega), hroot]
    simp only [Option.bind_some, hs, Int.toNat_natCast]
    rw [f3]
    rfl
  refine ⟨_, front, back, e, f1, f2, ?_, ?_, ?_⟩
  · exact (Map.get_set_ne _ _ (by omega)).trans (Map.get_set_eq _ _ _)
  · exact Map.get_set_eq _ _ _
  · intro k hk1 hk2
    exact (Map.get_set_ne _ _ hk1).trans (Map.get_set_ne _ _ hk2)

/-- The hypotheses of `C132_insert_partial` hold for the document of four pages. -/
example : ∃ F, ∀ fuel, F ≤ fuel → ∃ m', insertPage manip4 fuel (2 : Nat) (7 : Nat) b!"<</Type/Page>>" = some (some m') ∧
    m'.objects.get 7 = some b!"<</Type/Page>>" := by
  obtain ⟨F, hF⟩ := C132_insert_partial manip4 2 [3, 4, 5, 6] manip4_tree b!"2 0 obj\n<</Type/Pages" []
    b!">>\nendobj" [] [] b!" " 4 (by simp) (by simp) (by simp) (by intro c hc; simp at hc; subst hc; simp [White])
    (by intro c hc; simp at hc; subst hc; simp) (by
      intro t ht
      simp only [List.mem_cons, List.not_mem_nil, or_false] at ht
      rcases ht with rfl | rfl | rfl <;> exact ⟨notIn _ _ (by decide), notIn _ _ (by decide)⟩) (by decide +kernel)
  refine ⟨F, fun fuel hf => ?_⟩
  obtain ⟨m', _, _, e1, -, -, e2, -⟩ := hF fuel hf 2 7 b!"<</Type/Page>>" (by decide) (by decide)
  exact ⟨m', e1, e2⟩

/-- C132: a position outside 0 … number of pages + 1 is an error. -/
theorem C132_range (m : Manip) (t : PTree) (h : HasTree m t) : ∃ F, ∀ fuel, F ≤ fuel → ∀ (page n : Int) (content : Bytes),
    (page < 0 ∨ page > t.pages.length + 1) → insertPage m fuel page n content = some none := by
  obtain ⟨F, hF⟩ := tree_pages h
  refine ⟨F, fun fuel hf page n content hr => ?_⟩
  unfold insertPage
  rw [hF fuel hf]
  simp only [Option.map_some, Option.bind_some]
  rw [if_pos (by simpa using hr)]

/-- C132 is violated: a number that is in use is taken over without an error: the page that had it is replaced (here page 4 appears twice in the
tree, the original is lost). -/
theorem C132_overwrites_violated :
    ((insertPage manip4 9 1 4 b!"<</Type/Page/New true>>").map fun r => r.map fun m => (m.objects.get 4, m.objects.get 2)) =
      some (some (some b!"<</Type/Page/New true>>",
        some b!"2 0 obj\n<</Type/Pages/Kids[4 0 R 3 0 R 4 0 R 5 0 R 6 0 R ] /Count 5>>\nendobj")) := by decide +kernel

/-- C132 is violated: the pages of the opened file are counted, not those of the document: after an insertion the new last position is refused, and the
new page has no number by which it could be turned or deleted. -/
theorem C132_second_insertion_violated :
    (((insertPage manip4 9 0 7 b!"<</Type/Page>>").bind fun r => r.map fun m => (insertPage m 9 6 8 b!"<</Type/Page>>").map (·.isSome)) = some (some false)) ∧
    (((insertPage manip4 9 0 7 b!"<</Type/Page>>").bind fun r => r.map fun m => (deletePage m 9 5).map (·.isSome)) = some (some false)) := by decide +kernel

end Pdfer.Props
