import Verif.Spec.Outline
import Verif.Proofs.Writer
import Verif.Proofs.Rebuild

/-! What `SetBookmarks` stores. -/

namespace Pdfer.Outline

open Pdfer.Go Pdfer.Writer Pdfer.Strings Pdfer.Spec.Outline

/-! ### Texts -/

theorem str_value (s : Bytes) : formatValue id (.str s) = asValue s := by
  unfold formatValue asValue
  simp only [Bool.or_eq_true, List.isPrefixOf_iff_prefix, List.isSuffixOf_iff_suffix]

theorem int_value (n : Int) : formatValue id (.int n) = itoa n := rfl

theorem asValue_ref (n : Int) : asValue (ref n) = ref n := by
  rw [asValue, if_pos]
  exact .inr ⟨itoa n ++ b!" 0", by simp [ref]⟩

theorem asValue_name (s : Bytes) : asValue (47 :: s) = 47 :: s := by
  rw [asValue, if_pos]
  exact .inl ⟨s, rfl⟩

theorem asValue_paren (s : Bytes) : asValue (b!"(" ++ s ++ b!")") = b!"((" ++ s ++ b!"))" := by
  rw [asValue, if_neg]
  · simp
  · rintro (h | h)
    · obtain ⟨t, ht⟩ := h; simp at ht
    · obtain ⟨t, ht⟩ := h
      have := congrArg List.reverse ht
      simp at this

theorem asValue_paren' (s : Bytes) : asValue (40 :: (s ++ [41])) = 40 :: 40 :: (s ++ [41, 41]) := by
  have := asValue_paren s
  simpa using this

theorem action_text (uri : Bytes) : formatDictionary (actionDict uri) = actionText uri := by
  unfold formatDictionary formatDictOrd actionDict
  rw [formatValue]
  simp only [formatEntries, formatPair, str_value, asValue_paren, asValue_name]
  unfold actionText
  simp [renderEntries, sortBy, insertBy, bytesLe, slashKey]

theorem outlines_text (f l : Int) (c : Nat) : formatDictionary (outlinesDict f l c) = outlinesText f l c := by
  unfold formatDictionary formatDictOrd outlinesDict
  rw [formatValue]
  simp only [formatEntries, formatPair, str_value, int_value, asValue_ref, asValue_name]
  unfold outlinesText
  simp [renderEntries, sortBy, insertBy, bytesLe, slashKey, itoa]

def optPos (n : Int) : Option Int := if n > 0 then some n else none

theorem item_text (title : Bytes) (pages : Map Int Int) (page : Int) (dest : Bytes) (act : Option Int) (parent : Int) (prev : Option Int)
    (kids : Option (Int × Int × Nat)) :
    formatDictionary (itemDict title (destOf pages page dest) (match act with | none => [] | some a => ref a) parent prev
      (kids.map fun k => (k.1, k.2.1, (k.2.2 : Int)))) =
    itemText title (destination pages page dest) act (optPos parent) prev none kids := by
  have hd : (if destOf pages page dest ≠ [] then some (asValue (destOf pages page dest)) else none) = destination pages page dest := by
    unfold destOf destination
    split
    · cases pages.get page <;> simp
    · by_cases h : dest = [] <;> simp [h]
  rw [← hd]
  unfold formatDictionary formatDictOrd itemDict optPos
  generalize destOf pages page dest = D
  have href : ∀ a, ref a ≠ [] := by intro a; simp [ref]
  rw [formatValue]
  cases act <;> cases prev <;> cases kids <;> by_cases hD : D = [] <;> by_cases hp : parent > 0 <;>
    simp only [hD, hp, href, ne_eq, not_true_eq_false, not_false_eq_true, if_true, if_false, Option.map_none, Option.map_some,
      List.append_nil, List.cons_append, List.nil_append, formatEntries, formatPair, str_value, int_value, asValue_ref, asValue_paren, id_eq,
      itemText, entry] <;>
    simp [renderEntries, sortBy, insertBy, bytesLe, slashKey, itoa, asValue_paren']

/-! ### Linking a neighbour -/

theorem add_next (title : Bytes) (dest : Option Bytes) (action parent prev : Option Int) (kids : Option (Int × Int × Nat)) (n : Int) :
    addDictEntry (itemText title dest action parent prev none kids) b!"/Next" (ref n) =
      itemText title dest action parent prev (some n) kids := by
  unfold itemText
  generalize b!"<<" ++ entry b!"/A" (action.map ref) ++ entry b!"/Count" (kids.map fun k => natDec k.2.2) ++ entry b!"/Dest" dest ++
    entry b!"/First" (kids.map fun k => ref k.1) ++ entry b!"/Last" (kids.map fun k => ref k.2.1) ++
    entry b!"/Parent" (parent.map ref) ++ entry b!"/Prev" (prev.map ref) ++
    entry b!"/Title" (some (b!"((" ++ escapePDFString title ++ b!"))")) = T
  simp only [Option.map_none, Option.map_some, entry, List.append_nil]
  have h : lastIndex b!">>" (T ++ b!">>") = some T.length := by
    have := Manipulate.lastIndex_append (pat := b!">>") (t := b!">>") (i := 0) T (by decide)
    simpa using this
  unfold addDictEntry
  rw [h]
  simp

/-! ### The numbers handed out -/

mutual
/-- The numbers a bookmark gets when `next` is the next free number, and the next free number then. -/
def numberItem (next : Int) : Bookmark → Node × Int
  | .mk _ _ _ uri children =>
    let n := if uri = [] then next else next + 1
    (.mk n (if uri = [] then none else some next) (numberItems (n + 1) children).1, (numberItems (n + 1) children).2)
def numberItems (next : Int) : List Bookmark → List Node × Int
  | [] => ([], next)
  | b :: bs => ((numberItem next b).1 :: (numberItems (numberItem next b).2 bs).1, (numberItems (numberItem next b).2 bs).2)
end

mutual
theorem numberItem_range (next : Int) (b : Bookmark) :
    next < (numberItem next b).2 ∧ (∀ k ∈ (numberItem next b).1.nums, next ≤ k ∧ k < (numberItem next b).2) ∧ (numberItem next b).1.nums.Nodup ∧
    next ≤ (numberItem next b).1.num ∧ (numberItem next b).1.num < (numberItem next b).2 := by
  match b with
  | .mk title page dest uri children =>
    have ih := numberItems_range ((if uri = [] then next else next + 1) + 1) children
    rw [numberItem]
    simp only [Node.nums, Node.num]
    generalize numberItems ((if uri = [] then next else next + 1) + 1) children = q at *
    obtain ⟨h1, h2, h3⟩ := ih
    by_cases hu : uri = []
    · simp only [hu, if_true, Option.toList_none, List.nil_append, List.mem_cons, List.nodup_cons] at *
      refine ⟨by omega, ?_, ⟨?_, h3⟩, by omega, by omega⟩
      · rintro k (rfl | hk)
        · omega
        · have := h2 k hk; omega
      · intro hk; have := h2 _ hk; omega
    · simp only [hu, if_false, Option.toList_some, List.singleton_append, List.mem_cons, List.nodup_cons] at *
      refine ⟨by omega, ?_, ⟨?_, ?_, h3⟩, by omega, by omega⟩
      · rintro k (rfl | rfl | hk)
        · omega
        · omega
        · have := h2 k hk; omega
      · rintro (hk | hk)
        · omega
        · have := h2 _ hk; omega
      · intro hk; have := h2 _ hk; omega
theorem numberItems_range (next : Int) (bs : List Bookmark) :
    next ≤ (numberItems next bs).2 ∧ (∀ k ∈ numsOf (numberItems next bs).1, next ≤ k ∧ k < (numberItems next bs).2) ∧
    (numsOf (numberItems next bs).1).Nodup := by
  match bs with
  | [] => simp [numberItems, numsOf]
  | b :: bs =>
    have h := numberItem_range next b
    have ih := numberItems_range (numberItem next b).2 bs
    rw [numberItems]
    simp only [numsOf, List.mem_append, List.nodup_append]
    generalize numberItem next b = p at *
    generalize numberItems p.2 bs = q at *
    obtain ⟨h1, h2, h3, h4⟩ := h
    obtain ⟨i1, i2, i3⟩ := ih
    refine ⟨by omega, ?_, h3, i3, ?_⟩
    · rintro k (hk | hk)
      · have := h2 k hk; omega
      · have := i2 k hk; omega
    · intro a ha c hc e
      subst e
      have := h2 a ha; have := i2 a hc; omega
end

/-! ### Agreement on the numbers of a tree suffices -/

mutual
theorem itemAt_congr {obj obj' : Int → Option Bytes} {pages : Map Int Int} {parent prev next : Option Int} (x : Node) (b : Bookmark)
    (h : ∀ k ∈ x.nums, obj' k = obj k) (hx : ItemAt obj pages parent prev next x b) : ItemAt obj' pages parent prev next x b := by
  match x, b with
  | .mk n act kids, .mk title page dest uri children =>
    unfold ItemAt at hx ⊢
    simp only [Node.nums, List.mem_append, List.mem_cons] at h
    refine ⟨by rw [h n (.inr (.inl rfl))]; exact hx.1, ?_, itemsAt_congr kids children (fun k hk => h k (.inr (.inr hk))) hx.2.2⟩
    cases act with
    | none => exact hx.2.1
    | some a => exact ⟨hx.2.1.1, by rw [h a (.inl (by simp))]; exact hx.2.1.2⟩
theorem itemsAt_congr {obj obj' : Int → Option Bytes} {pages : Map Int Int} {parent prev : Option Int} (xs : List Node) (bs : List Bookmark)
    (h : ∀ k ∈ numsOf xs, obj' k = obj k) (hx : ItemsAt obj pages parent prev xs bs) : ItemsAt obj' pages parent prev xs bs := by
  match xs, bs with
  | [], [] => trivial
  | x :: xs, b :: bs =>
    rw [ItemsAt] at hx ⊢
    simp only [numsOf, List.mem_append] at h
    exact ⟨itemAt_congr x b (fun k hk => h k (.inl hk)) hx.1, itemsAt_congr xs bs (fun k hk => h k (.inr hk)) hx.2⟩
  | [], _ :: _ => simp [ItemsAt] at hx
  | _ :: _, [] => simp [ItemsAt] at hx
end

/-! ### The loop -/

/-- Everything but the objects and the counter. -/
def SameRest (w w' : Writer) : Prop := w' = { w with objects := w'.objects, nextObjNum := w'.nextObjNum }

theorem sameRest_refl (w : Writer) : SameRest w w := rfl

theorem sameRest_trans {a b c : Writer} (h1 : SameRest a b) (h2 : SameRest b c) : SameRest a c := by
  unfold SameRest at *
  rw [h2, h1]

theorem textOf_congr {w w' : Writer} {n : Int} (h : w'.objects.get n = w.objects.get n) : textOf w' n = textOf w n := by
  unfold textOf; rw [h]

theorem addAction_facts (w : Writer) (uri : Bytes) :
    (addAction w uri).1.nextObjNum = (if uri = [] then w.nextObjNum else w.nextObjNum + 1) ∧
    (addAction w uri).2 = (match (if uri = [] then none else some w.nextObjNum : Option Int) with | none => [] | some a => ref a) ∧
    (∀ k, k < w.nextObjNum → (addAction w uri).1.objects.get k = w.objects.get k) ∧
    (uri ≠ [] → textOf (addAction w uri).1 w.nextObjNum = some (actionText uri)) ∧
    SameRest w (addAction w uri).1 := by
  unfold addAction
  by_cases hu : uri = []
  · simp [hu, SameRest]
  · simp only [hu, if_false, addObject, action_text]
    refine ⟨trivial, trivial, ?_, ?_, rfl⟩
    · intro k hk
      rw [Map.get_set, if_neg (by omega)]
    · intro _
      simp [textOf, Map.get_set]

theorem setNext_facts (w : Writer) (prev n : Int) :
    (setNext w prev n).nextObjNum = w.nextObjNum ∧
    (∀ k, k ≠ prev → (setNext w prev n).objects.get k = w.objects.get k) ∧
    (∀ T, textOf w prev = some T → textOf (setNext w prev n) prev = some (addDictEntry T b!"/Next" (ref n))) ∧
    SameRest w (setNext w prev n) := by
  unfold setNext
  split
  · rename_i h
    refine ⟨rfl, fun _ _ => rfl, ?_, rfl⟩
    intro T hT; simp [textOf, h] at hT
  · rename_i o h
    refine ⟨rfl, ?_, ?_, rfl⟩
    · intro k hk
      simp only [putContent]
      rw [Map.get_set, if_neg (by first | exact hk | exact fun e => hk e.symm)]
    · intro T hT
      unfold textOf at hT ⊢
      simp only [putContent]
      rw [h] at hT
      simp only [Option.bind_some] at hT
      rw [Map.get_set, if_pos rfl]
      simp only [Option.bind_some]
      split at hT
      · rename_i hc
        rw [if_pos hc, hT]
        rfl
      · simp at hT

/-- What one turn of the loop does. -/
structure ItemOK (pages : Map Int Int) (parent : Int) (later : Bool) (st r : St) (b : Bookmark) (x : Node) (next : Int) : Prop where
  next : r.w.nextObjNum = next
  last : r.last = x.num
  first : r.first = if later then st.first else x.num
  count : r.count = st.count + (sizeOf1 b : Int)
  frame : ∀ k, k < st.w.nextObjNum → (later = true → k ≠ st.last) → r.w.objects.get k = st.w.objects.get k
  item : ItemAt (textOf r.w) pages (optPos parent) (if later then some st.last else none) none x b
  link : later = true → ∀ T, textOf st.w st.last = some T → textOf r.w st.last = some (addDictEntry T b!"/Next" (ref x.num))
  rest : SameRest st.w r.w

/-- What the loop does. -/
structure ItemsOK (pages : Map Int Int) (parent : Int) (later : Bool) (st r : St) (bs : List Bookmark) (xs : List Node) (next : Int) : Prop where
  next : r.w.nextObjNum = next
  last : r.last = (xs.getLast?.map Node.num).getD st.last
  first : r.first = if later then st.first else (xs.head?.map Node.num).getD st.first
  count : r.count = st.count + (sizeAll bs : Int)
  frame : ∀ k, k < st.w.nextObjNum → (later = true → k ≠ st.last) → r.w.objects.get k = st.w.objects.get k
  items : ItemsAt (textOf r.w) pages (optPos parent) (if later then some st.last else none) xs bs
  link : later = true → ∀ T, textOf st.w st.last = some T →
    textOf r.w st.last = some (match xs.head? with | none => T | some x => addDictEntry T b!"/Next" (ref x.num))
  rest : SameRest st.w r.w

theorem itemAt_next {obj obj' : Int → Option Bytes} {pages : Map Int Int} {parent prev : Option Int} {x : Node} {b : Bookmark} {n : Int}
    (hnd : x.nums.Nodup)
    (hx : ItemAt obj pages parent prev none x b)
    (h1 : ∀ k ∈ x.nums, k ≠ x.num → obj' k = obj k)
    (h2 : ∀ T, obj x.num = some T → obj' x.num = some (addDictEntry T b!"/Next" (ref n))) :
    ItemAt obj' pages parent prev (some n) x b := by
  match x, b with
  | .mk m act kids, .mk title page dest uri children =>
    unfold ItemAt at hx ⊢
    simp only [Node.nums, List.mem_append, List.mem_cons, Node.num] at h1 h2 hnd
    obtain ⟨a1, a2, a3⟩ := hx
    have hnd2 := List.nodup_append.1 hnd
    have hm : m ∉ numsOf kids := (List.nodup_cons.1 hnd2.2.1).1
    refine ⟨?_, ?_, ?_⟩
    · rw [h2 _ a1, add_next]
    · cases act with
      | none => exact a2
      | some a =>
        refine ⟨a2.1, ?_⟩
        rw [h1 a (.inl (by simp)) ?_]
        · exact a2.2
        · exact hnd2.2.2 a (by simp) m (by simp)
    · refine itemsAt_congr kids children (fun k hk => h1 k (.inr (.inr hk)) ?_) a3
      intro e; subst e; exact hm hk

theorem kids_size (next : Int) (children : List Bookmark) (n f l c : Int)
    (hf : f = ((numberItems next children).1.head?.map Node.num).getD 0) (hl : l = ((numberItems next children).1.getLast?.map Node.num).getD 0)
    (hc : c = (sizeAll children : Int)) :
    (if children.length > 0 then some (f, l, c) else none) =
      (kidsOf (numberItems next children).1 children).map fun k => (k.1, k.2.1, (k.2.2 : Int)) := by
  subst hf hl hc
  cases children with
  | nil => simp [numberItems, kidsOf]
  | cons b bs =>
    rw [numberItems]
    unfold kidsOf
    simp only [List.head?_cons, List.length_cons, Nat.zero_lt_succ, if_true]
    cases h : ((numberItem next b).1 :: (numberItems (numberItem next b).2 bs).1).getLast? with
    | none => simp at h
    | some l => simp

mutual
theorem createItem_ok (pages : Map Int Int) (parent : Int) (later : Bool) (st : St) (b : Bookmark) (hn : 0 < st.w.nextObjNum)
    (hl : later = true → st.last < st.w.nextObjNum) :
    ItemOK pages parent later st (createItem pages parent later st b) b (numberItem st.w.nextObjNum b).1 (numberItem st.w.nextObjNum b).2 := by
  match b with
  | .mk title page dest uri children =>
    obtain ⟨a1, a2, a3, a4, a5⟩ := addAction_facts st.w uri
    have ih := createItems_ok pages (addAction st.w uri).1.nextObjNum false
      ⟨{ (addAction st.w uri).1 with nextObjNum := (addAction st.w uri).1.nextObjNum + 1 }, 0, 0, 0⟩ children
      (by rw [a1]; simp only; split <;> omega) (by simp)
    have hr := numberItems_range ((addAction st.w uri).1.nextObjNum + 1) children
    have hks := kids_size ((addAction st.w uri).1.nextObjNum + 1) children 0 _ _ _ ih.first ih.last (by simpa using ih.count)
    rw [createItem, numberItem]
    simp only
    rw [← a1]
    generalize hA : addAction st.w uri = A at *
    generalize hq : numberItems (A.1.nextObjNum + 1) children = q at *
    generalize hK : createItems pages A.1.nextObjNum false ⟨{ A.1 with nextObjNum := A.1.nextObjNum + 1 }, 0, 0, 0⟩ children = K at *
    rw [hks]
    have hAn : st.w.nextObjNum ≤ A.1.nextObjNum := by rw [a1]; split <;> omega
    rw [a2, item_text]
    generalize hact : (if uri = [] then none else some st.w.nextObjNum : Option Int) = act at *
    generalize htxt : itemText title (destination pages page dest) act (optPos parent) (if later = true then some st.last else none) none
      (kidsOf q.1 children) = txt at *
    -- the writer with the item
    let W : Writer := { K.w with objects := K.w.objects.set A.1.nextObjNum { content := some txt, stream := none, dict := none } }
    have hW : ∀ k, k ≠ A.1.nextObjNum → W.objects.get k = K.w.objects.get k := by
      intro k hk
      show (K.w.objects.set _ _).get k = _
      rw [Map.get_set, if_neg (by first | exact hk | exact fun e => hk e.symm)]
    have hWn : textOf W A.1.nextObjNum = some txt := by
      unfold textOf
      show ((K.w.objects.set _ _).get _).bind _ = _
      rw [Map.get_set, if_pos rfl]; rfl
    have hKk : ∀ k, k < A.1.nextObjNum + 1 → K.w.objects.get k = A.1.objects.get k := fun k hk => ih.frame k hk (by simp)
    obtain ⟨n1, n2, n3, n4⟩ := setNext_facts W st.last A.1.nextObjNum
    -- the final writer
    have key : ∃ F : Writer, (if later = true then setNext W st.last A.1.nextObjNum else W) = F ∧ F.nextObjNum = K.w.nextObjNum ∧
        (∀ k, (later = true → k ≠ st.last) → F.objects.get k = W.objects.get k) ∧
        (later = true → ∀ T, textOf W st.last = some T → textOf F st.last = some (addDictEntry T b!"/Next" (ref A.1.nextObjNum))) ∧
        SameRest K.w F := by
      refine ⟨_, rfl, ?_⟩
      cases later with
      | false => exact ⟨rfl, fun _ _ => rfl, by simp, rfl⟩
      | true => exact ⟨n1, fun k hk => n2 k (hk rfl), fun _ => n3, n4⟩
    obtain ⟨F, hF, f1, f2, f3, f4⟩ := key
    show ItemOK pages parent later st ⟨if later = true then setNext W st.last A.1.nextObjNum else W, _, _, _⟩ _ _ _
    rw [hF]
    have hlast : later = true → st.last < A.1.nextObjNum := fun h => by have := hl h; omega
    constructor
    · show F.nextObjNum = q.2
      rw [f1]; exact ih.next
    · rfl
    · rfl
    · show st.count + 1 + (if K.count > 0 then K.count else 0) = _
      have hc := ih.count
      simp only [sizeOf1] at hc ⊢
      rw [hc]
      split <;> omega
    · intro k hk hkl
      show F.objects.get k = _
      rw [f2 k hkl, hW k (by omega), hKk k (by omega)]
      exact a3 k hk
    · show ItemAt (textOf F) _ _ _ _ _ _
      unfold ItemAt
      refine ⟨?_, ?_, ?_⟩
      · rw [textOf_congr (f2 _ (fun h => by have := hlast h; omega)), hWn, htxt]
      · by_cases hu : uri = []
        · simp only [hu, if_true] at hact
          subst hact; exact hu
        · simp only [hu, if_false] at hact
          subst hact
          refine ⟨hu, ?_⟩
          have ha : A.1.nextObjNum = st.w.nextObjNum + 1 := by rw [a1, if_neg hu]
          rw [textOf_congr (f2 _ (fun h => by have := hl h; omega)), textOf_congr (hW _ (by omega)), textOf_congr (hKk _ (by omega))]
          exact a4 hu
      · have hi := ih.items
        have hop : optPos A.1.nextObjNum = some A.1.nextObjNum := by unfold optPos; rw [if_pos (by omega)]
        rw [hop] at hi
        refine itemsAt_congr q.1 children (fun k hk => ?_) hi
        have := hr.2.1 k hk
        rw [textOf_congr (f2 _ (fun h => by have := hlast h; omega)), textOf_congr (hW _ (by omega))]
    · intro h T hT
      show textOf F _ = _
      apply f3 h
      have := hl h
      rw [textOf_congr (hW _ (by omega)), textOf_congr (hKk _ (by omega)), textOf_congr (a3 _ this)]
      exact hT
    · exact sameRest_trans a5 (sameRest_trans (sameRest_trans (b := { A.1 with nextObjNum := A.1.nextObjNum + 1 }) (by rfl) ih.rest) f4)
theorem createItems_ok (pages : Map Int Int) (parent : Int) (later : Bool) (st : St) (bs : List Bookmark) (hn : 0 < st.w.nextObjNum)
    (hl : later = true → st.last < st.w.nextObjNum) :
    ItemsOK pages parent later st (createItems pages parent later st bs) bs (numberItems st.w.nextObjNum bs).1
      (numberItems st.w.nextObjNum bs).2 := by
  match bs with
  | [] =>
    rw [createItems, numberItems]
    constructor <;> simp [sizeAll, ItemsAt, SameRest]
  | b :: bs =>
    have h1 := createItem_ok pages parent later st b hn hl
    have hr1 := numberItem_range st.w.nextObjNum b
    have hr2 := numberItems_range (numberItem st.w.nextObjNum b).2 bs
    have h2 := createItems_ok pages parent true (createItem pages parent later st b) bs (by rw [h1.next]; omega)
      (fun _ => by rw [h1.next, h1.last]; exact hr1.2.2.2.2)
    rw [createItems, numberItems]
    rw [h1.next] at h2
    generalize createItem pages parent later st b = r1 at *
    generalize createItems pages parent true r1 bs = r at *
    generalize hp : numberItem st.w.nextObjNum b = p at *
    generalize hq : numberItems p.2 bs = q at *
    have hrn := h1.next
    constructor
    · exact h2.next
    · rw [h2.last, h1.last]
      cases hq1 : q.1.getLast? with
      | none =>
        have : q.1 = [] := by simpa using hq1
        simp [this]
      | some l =>
        simp [List.getLast?_cons, hq1]
    · simp only [List.head?_cons, Option.map_some, Option.getD_some]
      rw [h2.first, if_pos rfl, h1.first]
    · rw [h2.count, h1.count, sizeAll]; push_cast; omega
    · intro k hk hkl
      rw [h2.frame k (by omega) (fun _ => by rw [h1.last]; omega)]
      exact h1.frame k hk hkl
    · rw [ItemsAt]
      have hlk := h2.link rfl
      rw [h1.last] at hlk
      have hfr : ∀ k ∈ p.1.nums, k ≠ p.1.num → textOf r.w k = textOf r1.w k := by
        intro k hk hkn
        have := hr1.2.1 k hk
        exact textOf_congr (h2.frame k (by omega) (fun _ => by rw [h1.last]; exact hkn))
      refine ⟨?_, ?_⟩
      · cases hq1 : q.1.head? with
        | none =>
          rw [hq1] at hlk
          simp only [Option.map_none]
          refine itemAt_congr _ _ (fun k hk => ?_) h1.item
          by_cases hkn : k = p.1.num
          · subst hkn
            have hit := h1.item
            have : ∃ T, textOf r1.w p.1.num = some T := by
              revert hit
              generalize p.1 = x
              match x, b with
              | .mk m act kids, .mk title page dest uri children => intro hit; unfold ItemAt at hit; exact ⟨_, hit.1⟩
            obtain ⟨T, hT⟩ := this
            rw [hT]
            exact hlk T hT
          · exact hfr k hk hkn
        | some y =>
          rw [hq1] at hlk
          simp only [Option.map_some]
          exact itemAt_next hr1.2.2.1 h1.item hfr hlk
      · have := h2.items
        rw [if_pos rfl, h1.last] at this
        exact this
    · intro h T hT
      simp only [List.head?_cons]
      have h3 := h1.link h T hT
      have := hl h
      rw [textOf_congr (h2.frame st.last (by omega) (fun _ => by rw [h1.last]; omega))]
      exact h3
    · exact sameRest_trans h1.rest h2.rest
end

end Pdfer.Outline
