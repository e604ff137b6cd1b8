import Verif.Proofs.OutlineWriter
import Verif.Proofs.Fill

/-! C54, C80, C81, C82: bookmarks. -/

namespace Pdfer.Props

open Pdfer.Go Pdfer.Writer Pdfer.Outline Pdfer.Spec.Outline Pdfer.Manipulate Pdfer.Incremental

/-! ### C80 -/

/-- C80 (partial: the top-level items get no /Parent and titles and destinations are put in a second pair of parentheses, see the
violations below and C81): after any history of calls, for every list of bookmarks with children nested to any depth, `SetBookmarks`
stores one item per bookmark, all under fresh and different numbers, with the title, destination, action, parent, neighbours, first and
last child and number of descendants of its bookmark; the outline dictionary names the first and the last item and the number of all
items; no older object changes. -/
theorem C80_outline_tree_partial (env : Writer.Env) (ops : List OOp) (bs : List Bookmark) (hbs : bs ≠ []) (pages : Map Int Int) :
    let o := orun env ops
    let r := setBookmarks o bs pages
    ∃ xs f l, xs.head? = some f ∧ xs.getLast? = some l ∧
      ItemsAt (textOf r.1.w) pages none none xs bs ∧
      (numsOf xs).Nodup ∧ (∀ k ∈ numsOf xs, o.w.nextObjNum ≤ k ∧ k < r.2) ∧
      textOf r.1.w r.2 = some (outlinesText f.num l.num (sizeAll bs)) ∧
      r.1.outlines = ref r.2 ∧ r.1.w.nextObjNum = r.2 + 1 ∧
      (∀ k, k < o.w.nextObjNum → r.1.w.objects.get k = o.w.objects.get k) ∧
      r.1.w.rootRef = o.w.rootRef := by
  intro o r
  have hi := oinv_run env ops
  have ok := createItems_ok pages 0 false ⟨o.w, 0, 0, 0⟩ bs (by have := hi.inv.next_pos; show 0 < (orun env ops).w.nextObjNum; omega) (by simp)
  have hr := numberItems_range o.w.nextObjNum bs
  have hlen : ¬ bs.length = 0 := by simp [hbs]
  simp only at ok
  have hfirst : ∃ f, (numberItems o.w.nextObjNum bs).1.head? = some f := by
    cases bs with
    | nil => exact absurd rfl hbs
    | cons b bs => rw [numberItems]; exact ⟨_, rfl⟩
  obtain ⟨f, hf⟩ := hfirst
  have hlast : ∃ l, (numberItems o.w.nextObjNum bs).1.getLast? = some l := by
    cases h : (numberItems o.w.nextObjNum bs).1.getLast? with
    | none => rw [List.getLast?_eq_none_iff] at h; rw [h] at hf; simp at hf
    | some l => exact ⟨l, rfl⟩
  obtain ⟨l, hl⟩ := hlast
  have hrr : r = setBookmarks o bs pages := rfl
  clear_value r
  unfold setBookmarks at hrr
  rw [if_neg hlen] at hrr
  simp only at hrr
  generalize hst : createItems pages 0 false ⟨o.w, 0, 0, 0⟩ bs = st at *
  have hnx := ok.next
  have hfi := ok.first
  have hla := ok.last
  have hco := ok.count
  simp only [if_false, hf, hl, Option.map_some, Option.getD_some, Bool.false_eq_true] at hfi hla hco
  subst hrr
  simp only [addObject]
  refine ⟨(numberItems o.w.nextObjNum bs).1, f, l, hf, hl, ?_, hr.2.2, ?_, ?_, trivial, trivial, ?_, ?_⟩
  · refine itemsAt_congr _ bs (fun k hk => ?_) ok.items
    have := hr.2.1 k hk
    apply textOf_congr
    simp only
    rw [Map.get_set, if_neg (by omega)]
  · intro k hk
    rw [hnx]
    exact hr.2.1 k hk
  · unfold textOf
    simp only
    rw [Map.get_set, if_pos rfl]
    simp only [Option.bind_some, Option.isNone_none, Bool.and_self, if_true]
    rw [hfi, hla, hco]
    simp only [Int.zero_add]
    rw [outlines_text]
  · intro k hk
    rw [Map.get_set, if_neg (by omega)]
    exact ok.frame k hk (by simp)
  · have : SameRest o.w st.w := ok.rest
    rw [this]

theorem itemText_parent (title : Bytes) (dest : Option Bytes) (act prev next : Option Int) (kids : Option (Int × Int × Nat)) (p : Int) :
    itemText title dest act (some p) prev next kids ≠ itemText title dest act none prev next kids := by
  intro h
  have := congrArg List.length h
  simp only [itemText, entry, List.length_append, Option.map_some, Option.map_none, List.length_nil] at this
  have hp : (b!"/Parent").length = 7 := rfl
  omega

/-- C80 is violated: the outline dictionary should be the parent of the top-level items (ISO 32000-1, Table 153), but whatever tree
satisfies the theorem above, its top-level items name no parent. -/
theorem C80_top_level_parent_violated (env : Writer.Env) (ops : List OOp) (bs : List Bookmark) (hbs : bs ≠ []) (pages : Map Int Int)
    (xs : List Node) :
    let r := setBookmarks (orun env ops) bs pages
    ItemsAt (textOf r.1.w) pages none none xs bs → ¬ ItemsAt (textOf r.1.w) pages (some r.2) none xs bs := by
  intro r h h'
  match xs, bs with
  | [], [] => exact hbs rfl
  | .mk n act kids :: xs, .mk title page dest uri children :: bs =>
    rw [ItemsAt] at h h'
    have h1 := h.1
    have h2 := h'.1
    unfold ItemAt at h1 h2
    have := h1.1.symm.trans h2.1
    simp only [Option.some.injEq] at this
    exact itemText_parent _ _ _ _ _ _ _ this.symm
  | [], _ :: _ => simp [ItemsAt] at h
  | _ :: _, [] => exact hbs rfl

/-- C80 is violated: the item of a bookmark with a known page has as destination a string that looks like an array, not an array. -/
theorem C80_destination_string_violated (env : Writer.Env) (ops : List OOp) (title dest : Bytes) (page n : Int) (children bs : List Bookmark)
    (pages : Map Int Int) (h : 0 < page) (hp : pages.get page = some n) :
    let o := orun env ops
    let r := setBookmarks o (.mk title page dest [] children :: bs) pages
    ∃ k t, o.w.nextObjNum ≤ k ∧ textOf r.1.w k = some t ∧ b!"/Dest ([" ++ itoa n ++ b!" 0 R /XYZ 0 792 null]) " <:+: t := by
  intro o r
  obtain ⟨xs, f, l, hf, _, hi, _, hk, _⟩ := C80_outline_tree_partial env ops (.mk title page dest [] children :: bs) (by simp) pages
  have hd : destination pages page dest = some (b!"([" ++ itoa n ++ b!" 0 R /XYZ 0 792 null])") := by
    unfold destination
    rw [if_pos h, hp, Option.map_some]
    congr 1
    rw [asValue, if_neg]
    · simp
    · rintro (h | h)
      · obtain ⟨t, ht⟩ := h; simp at ht
      · obtain ⟨t, ht⟩ := h
        have := congrArg List.reverse ht
        simp at this
  match xs, hf with
  | .mk m act kids :: xs, _ =>
    rw [ItemsAt] at hi
    have h1 := hi.1
    unfold ItemAt at h1
    refine ⟨m, _, (hk m (by simp [numsOf, Node.nums])).1, h1.1, ?_⟩
    unfold itemText
    rw [hd]
    simp only [entry]
    refine ⟨b!"<<" ++ entry b!"/A" (act.map ref) ++ entry b!"/Count" ((kidsOf kids children).map fun k => natDec k.2.2), ?_⟩
    simp only [List.append_assoc]
    exact ⟨_, rfl⟩

/-- Bookmarks for the examples: two chapters, the first with a section and a link below it. -/
def exBookmarks : List Bookmark :=
  [.mk b!"One" 1 [] [] [.mk b!"Section" 0 b!"/There" [] [], .mk b!"Link" 0 [] b!"http://x.org" []], .mk b!"Two" 2 [] [] []]
def exOOps : List OOp :=
  [.call (.addObject (some b!"<</Type/Catalog/Pages 2 0 R/Lang(en)>>")), .call (.addObject (some b!"<</Type/Pages/Kids[]/Count 0>>")), .call (.setRoot 1)]

example : (setBookmarks (orun plainEnv exOOps) exBookmarks [(1, 7), (2, 9)]).1.w.objects.map (fun e => (e.1, e.2.content.getD [])) =
    [(8, b!"<</Count 4 /First 3 0 R /Last 7 0 R /Type /Outlines >>"),
     (3, b!"<</Count 2 /Dest ([7 0 R /XYZ 0 792 null]) /First 4 0 R /Last 6 0 R /Title ((One)) /Next 7 0 R >>"),
     (7, b!"<</Dest ([9 0 R /XYZ 0 792 null]) /Prev 3 0 R /Title ((Two)) >>"),
     (4, b!"<</Dest /There /Parent 3 0 R /Title ((Section)) /Next 6 0 R >>"),
     (6, b!"<</A 5 0 R /Parent 3 0 R /Prev 4 0 R /Title ((Link)) >>"),
     (5, b!"<</S /URI /Type /Action /URI ((http://x.org)) >>"),
     (2, b!"<</Type/Pages/Kids[]/Count 0>>"), (1, b!"<</Type/Catalog/Pages 2 0 R/Lang(en)>>")] := by decide +kernel

/-! ### C54 -/

/-- C54 (partial: only a catalog without /Type or without /Pages, see the violation below): the reference to the outline is inserted
before the last `>>` of the catalog and nothing else of it changes. -/
theorem C54_inserted_partial (env : Writer.Env) (ops : List OOp) (k n : Int) (a b : Bytes) (st : Option Bytes)
    (hk : (orun env ops).outlines = ref k) (hr : (orun env ops).w.rootRef = ref n) (hn : 0 < n) (hn2 : n ≤ 9223372036854775807)
    (hobj : (orun env ops).w.objects.get n = some { content := some (a ++ b!">>" ++ b), stream := st, dict := none })
    (h1 : ¬ (b!"/Type" <:+: a ++ b!">>" ++ b ∧ b!"/Pages" <:+: a ++ b!">>" ++ b)) (h2 : ¬ b!"/Outlines" <:+: a ++ b!">>" ++ b)
    (ha : a ≠ []) (hb : (62 : UInt8) ∉ b) :
    (updateCatalog (orun env ops)).w.objects.get n =
      some { content := some (a ++ b!"/Outlines " ++ ref k ++ b!" >>" ++ b), stream := st, dict := none } ∧
    ∀ m, m ≠ n → (updateCatalog (orun env ops)).w.objects.get m = (orun env ops).w.objects.get m := by
  have hl : lastIndex b!">>" (a ++ b!">>" ++ b) = some a.length := by
    rw [List.append_assoc]; exact Forms.lastIndex_end hb
  refine ⟨?_, fun m hm => update_other hr hn hn2 m hm⟩
  rw [(update_insert hk hr hn hn2 hobj h1 h2 ha hl).1, Map.get_set, if_pos rfl]

/-- The number a catalog gives for its page tree is written in parentheses. -/
theorem valueFromString_ref (a b : Bytes) (p : Nat) (ha : ¬ b!"/Pages " <:+: a) :
    valueFromString (a ++ b!"/Pages " ++ natDec p ++ b!" 0 R" ++ b) b!"/Pages" = natDec p := by
  unfold valueFromString
  have e : a ++ b!"/Pages " ++ natDec p ++ b!" 0 R" ++ b = a ++ ((47 :: b!"Pages ") ++ (natDec p ++ (32 :: (b!"0 R" ++ b)))) := by
    simp
  have hi : index (b!"/Pages" ++ b!" ") (a ++ ((47 :: b!"Pages ") ++ (natDec p ++ (32 :: (b!"0 R" ++ b))))) = some a.length :=
    index_first (by decide) (noOcc_iff_infix.2 ha)
  rw [e, hi]
  simp only
  have hd : (a ++ ((47 :: b!"Pages ") ++ (natDec p ++ (32 :: (b!"0 R" ++ b))))).drop (a.length + (b!"/Pages" ++ b!" ").length) =
      natDec p ++ (32 :: (b!"0 R" ++ b)) := by
    rw [← List.drop_drop, List.drop_left]
    rfl
  rw [hd]
  have : ∀ (d r : Bytes), (∀ c ∈ d, isDigit c = true) →
      (d ++ 32 :: r).takeWhile (fun c => decide (c ≠ 32) && decide (c ≠ 62) && decide (c ≠ 10)) = d := by
    intro d r hd
    have hdig : ∀ c : UInt8, isDigit c = true → (decide (c ≠ 32) && decide (c ≠ 62) && decide (c ≠ 10)) = true := by
      apply forall_byte; decide +kernel
    induction d with
    | nil => rfl
    | cons c d ih =>
      rw [List.cons_append, List.takeWhile_cons, if_pos (hdig c (hd c (by simp))), ih (fun x hx => hd x (by simp [hx]))]
  exact this _ _ (natDec_digits p)

/-- Helper for C54: what becomes of an ordinary catalog. -/
theorem catalog_rewritten (o : OWriter) (k n : Int) (a b : Bytes) (p : Nat) (st : Option Bytes)
    (hk : o.outlines = ref k) (hr : o.w.rootRef = ref n) (hn : 0 < n) (hn2 : n ≤ 9223372036854775807)
    (hobj : o.w.objects.get n = some { content := some (a ++ b!"/Pages " ++ natDec p ++ b!" 0 R" ++ b), stream := st, dict := none })
    (h1 : b!"/Type" <:+: a ++ b!"/Pages " ++ natDec p ++ b!" 0 R" ++ b) (ha : ¬ b!"/Pages " <:+: a) :
    ∃ d, (updateCatalog o).w.objects.get n = some {
        content := some (b!"<</Outlines " ++ ref k ++ b!" /Pages (" ++ natDec p ++ b!") /Type /Catalog >>"), stream := st, dict := d } ∧
      ∀ m, parseObjectRef (xDictValue (itoa m ++ b!" 0 obj\n" ++
        (b!"<</Outlines " ++ ref k ++ b!" /Pages (" ++ natDec p ++ b!") /Type /Catalog >>") ++ b!"\nendobj") b!"/Pages") = none := by
  have hv := valueFromString_ref a b p ha
  have hval : asValue (natDec p) = b!"(" ++ natDec p ++ b!")" := by
    rw [asValue, if_neg]
    rintro (h | h)
    · obtain ⟨t, ht⟩ := h
      exact not_mem_natDec (c := 47) (by decide) p (by rw [← ht]; simp)
    · obtain ⟨t, ht⟩ := h
      exact not_mem_natDec (c := 82) (by decide) p (by rw [← ht]; simp)
  refine ⟨some o.w.heap.length, ?_, ?_⟩
  · rw [(update_rewrite hk hr hn hn2 hobj ((contains_iff _ _).2 h1) ((contains_iff _ _).2 ⟨a, b!" " ++ natDec p ++ b!" 0 R" ++ b, by simp⟩)).1,
      Map.get_set, if_pos rfl, hv]
    unfold catalogText
    rw [hval]
    simp
  · intro m
    have e : itoa m ++ b!" 0 obj\n" ++ (b!"<</Outlines " ++ ref k ++ b!" /Pages (" ++ natDec p ++ b!") /Type /Catalog >>") ++ b!"\nendobj" =
        (itoa m ++ b!" 0 obj\n<</Outlines " ++ ref k ++ b!" ") ++ (entry b!"/Pages" (some (b!"(" ++ natDec p ++ b!")")) ++
          (b!"/Type /Catalog >>" ++ b!"\nendobj")) := by
      simp [entry]
    have hfw : firstWord (b!"(" ++ natDec p ++ b!")") = 40 :: (natDec p ++ b!")") := by
      have all : ∀ w : Bytes, (∀ c ∈ w, tokByte c = true) → w.takeWhile tokByte = w := by
        intro w hw
        induction w with
        | nil => rfl
        | cons c w ih => rw [List.takeWhile_cons, if_pos (hw c (by simp)), ih (fun x hx => hw x (by simp [hx]))]
      unfold firstWord
      rw [all]
      · rfl
      · intro c hc
        simp only [List.mem_append, List.mem_singleton] at hc
        rcases hc with (rfl | hc) | rfl
        · decide
        · exact digit_tok c (natDec_digits p c hc)
        · decide
    rw [e, xDict_found, hfw]
    · unfold parseObjectRef
      have : fields (40 :: (natDec p ++ b!")")) = [40 :: (natDec p ++ b!")")] := by
        have := (XRefStream.fields_spaced [40 :: (natDec p ++ b!")")] (by
          intro w hw
          simp only [List.mem_singleton] at hw
          subst hw
          refine ⟨by simp, fun c hc => ?_⟩
          simp only [List.mem_cons, List.mem_append, List.not_mem_nil, or_false] at hc
          rcases hc with rfl | hc | rfl
          · decide
          · exact digit_isSpace (natDec_digits p c hc)
          · decide)).1
        simpa [Spec.spaced] using this
      rw [this]
      rfl
    · refine Crypto.avoid_append (Crypto.avoid_append (Crypto.avoid_append (Crypto.avoid_head (Crypto.slash_not_itoa _)) (Crypto.avoid_clash (by decide)))
        (Crypto.avoid_head (slash_ref k))) (Crypto.avoid_head (by decide))
    · exact ⟨40, _, rfl, by decide⟩

/-- C54 is violated for every ordinary catalog, that is, one whose text has a /Type and a reference to the page tree: after outlines
were set, the catalog in the file has only /Outlines, /Pages and /Type, whatever else it had; and its /Pages is no longer a reference
but the number in parentheses, so that the page tree cannot be found. -/
theorem C54_catalog_rewritten_violated (env : Writer.Env) (ops : List OOp) (k n : Int) (a b : Bytes) (p : Nat) (st : Option Bytes)
    (hk : (orun env ops).outlines = ref k) (hr : (orun env ops).w.rootRef = ref n) (hn : 0 < n) (hn2 : n ≤ 9223372036854775807)
    (hobj : (orun env ops).w.objects.get n = some { content := some (a ++ b!"/Pages " ++ natDec p ++ b!" 0 R" ++ b), stream := st, dict := none })
    (h1 : b!"/Type" <:+: a ++ b!"/Pages " ++ natDec p ++ b!" 0 R" ++ b) (ha : ¬ b!"/Pages " <:+: a) :
    ∃ d, (updateCatalog (orun env ops)).w.objects.get n = some {
        content := some (b!"<</Outlines " ++ ref k ++ b!" /Pages (" ++ natDec p ++ b!") /Type /Catalog >>"), stream := st, dict := d } ∧
      ∀ m, parseObjectRef (xDictValue (itoa m ++ b!" 0 obj\n" ++
        (b!"<</Outlines " ++ ref k ++ b!" /Pages (" ++ natDec p ++ b!") /Type /Catalog >>") ++ b!"\nendobj") b!"/Pages") = none :=
  catalog_rewritten (orun env ops) k n a b p st hk hr hn hn2 hobj h1 ha

/-- C54, the part that holds for every writer: updating the catalog a second time (every later Write) changes nothing. -/
theorem C54_second_write_same_partial (env : Writer.Env) (ops : List OOp) :
    updateCatalog (updateCatalog (orun env ops)) = updateCatalog (orun env ops) := update_idem (oinv_run env ops)

example : ((updateCatalog (orun plainEnv (exOOps ++ [.bookmarks exBookmarks []]))).w.objects.get 1).bind (·.content) =
    some b!"<</Outlines 8 0 R /Pages (2) /Type /Catalog >>" ∧
    (orun plainEnv (exOOps ++ [.bookmarks exBookmarks []])).outlines = ref 8 ∧
    (orun plainEnv (exOOps ++ [.bookmarks exBookmarks []])).w.rootRef = ref 1 := by decide +kernel

/-! ### C81 -/

theorem occ_after {p v t : Bytes} {k : Bytes} (hp : p = 47 :: k) (hv : (47 : UInt8) ∉ v) (h : p <:+: v ++ t) : p <:+: t := by
  obtain ⟨s, r, e⟩ := h
  by_cases hs : s.length < v.length
  · exfalso
    have h1 : (s ++ p ++ r)[s.length]? = some 47 := by
      rw [List.append_assoc, List.getElem?_append_right (Nat.le_refl _), hp]
      simp
    rw [e, List.getElem?_append_left hs] at h1
    exact hv (List.mem_of_getElem? h1)
  · refine ⟨s.drop v.length, r, ?_⟩
    have := congrArg (List.drop v.length) e
    rw [List.drop_left, List.append_assoc, List.drop_append_of_le_length (by omega)] at this
    rw [List.append_assoc]; exact this

/-- A catalog to which the writer can add an outline: it has a /Type and a /Pages, or no /Outlines and a `>>` with no angle bracket
after it. -/
def CatalogFits (s : Bytes) : Prop :=
  (b!"/Type" <:+: s ∧ b!"/Pages" <:+: s) ∨ (¬ b!"/Outlines" <:+: s ∧ ∃ a b, s = a ++ b!">>" ++ b ∧ a ≠ [] ∧ (62 : UInt8) ∉ b)

/-- C81 (partial: what comes back is `readBackAll`, see below; table mode, texts that cannot be taken for keys and objects that can be
delimited): after any history of calls, SetBookmarks and Write, the file can be opened and ExtractBookmarks returns for every bookmark,
at every depth, exactly one bookmark, which depends only on the one that was set. -/
theorem C81_set_write_extract_partial (wenv : Writer.Env) (ops : List OOp) (bs : List Bookmark) (hbs : bs ≠ []) (pages : Map Int Int)
    (n : Int) (s : Bytes) (hn : 0 < n) (hr : (orun wenv ops).w.rootRef = ref n)
    (hobj : (orun wenv ops).w.objects.get n = some { content := some s, stream := none, dict := none }) (hs : CatalogFits s)
    (hplain : PlainAll bs)
    (hfit : Spec.FileFits wenv (updateCatalog (orun wenv (ops ++ [.bookmarks bs pages]))).w)
    (hdel : ∀ m ob, (updateCatalog (orun wenv (ops ++ [.bookmarks bs pages]))).w.objects.get m = some ob → ob.stream = none →
      Spec.Delimitable (ob.content.getD []))
    (env : Incremental.Env) (henc : env.handleEncryption (owrite wenv (orun wenv (ops ++ [.bookmarks bs pages]))).1 = some none)
    (fuel : Nat) (hfuel : sizeAll bs ≤ fuel) :
    ∃ pdf, openPdf env (owrite wenv (orun wenv (ops ++ [.bookmarks bs pages]))).1 = .ok pdf ∧
      extractBookmarks (pdfGet env pdf) pdf.root fuel = some (readBackAll pages bs) := by
  obtain ⟨xs, f, l, hf, _, hi, _, hk, ho, hout, hnx, hold, hroot⟩ := C80_outline_tree_partial wenv ops bs hbs pages
  have e : orun wenv (ops ++ [.bookmarks bs pages]) = (setBookmarks (orun wenv ops) bs pages).1 := by
    unfold orun; rw [List.foldl_append]; rfl
  have hinv := oinv_run wenv ops
  have hinv2 := oinv_run wenv (ops ++ [.bookmarks bs pages])
  rw [e] at hfit hdel henc hinv2 ⊢
  have hnlt : n < (orun wenv ops).w.nextObjNum := hinv.inv.lt_next n ((Map.get_isSome_iff _ _).1 (by rw [hobj]; rfl))
  have hp0 := hinv.inv.next_pos
  have hobj' := hold n hnlt
  rw [hobj] at hobj'
  rw [hr] at hroot
  have hfk := hk f.num (head_num_mem hf)
  generalize (setBookmarks (orun wenv ops) bs pages).2 = k at *
  generalize hoe : (setBookmarks (orun wenv ops) bs pages).1 = o at *
  have hmax : n ≤ 9223372036854775807 := by
    have h2 := hfit.next
    rw [update_next] at h2
    omega
  have hkpos : 0 < k := by omega
  -- the catalog in the file
  have hcat : ∃ ob, (updateCatalog o).w.objects.get n = some ob ∧ ob.stream = none ∧
      xDictValue (Outline.objectText n (ob.content.getD [])) b!"/Outlines" = natDec k.toNat ∧
      (updateCatalog o).w.nextObjNum = o.w.nextObjNum ∧ (updateCatalog o).w.rootRef = ref n := by
    have rewrite : b!"/Type" <:+: s → b!"/Pages" <:+: s → ∃ ob, (updateCatalog o).w.objects.get n = some ob ∧ ob.stream = none ∧
        xDictValue (Outline.objectText n (ob.content.getD [])) b!"/Outlines" = natDec k.toNat ∧
        (updateCatalog o).w.nextObjNum = o.w.nextObjNum ∧ (updateCatalog o).w.rootRef = ref n := by
      intro h3 h4
      obtain ⟨u1, u2, u3⟩ := update_rewrite hout hroot hn hmax hobj' ((contains_iff _ _).2 h3) ((contains_iff _ _).2 h4)
      refine ⟨_, by rw [u1, Map.get_set, if_pos rfl], rfl, ?_, u2, u3⟩
      simp only [Option.getD_some]
      have : catalogText k (valueFromString s b!"/Pages") = b!"<</Outlines " ++ ref k ++ b!" " ++
          (b!"/Pages " ++ asValue (valueFromString s b!"/Pages") ++ b!" /Type /Catalog >>") := by
        simp [catalogText]
      rw [this]
      exact outlines_of_catalog n k _ hkpos
    rcases hs with ⟨h3, h4⟩ | ⟨h3, a, b, rfl, h5, h6⟩
    · exact rewrite h3 h4
    · by_cases hb : b!"/Type" <:+: a ++ b!">>" ++ b ∧ b!"/Pages" <:+: a ++ b!">>" ++ b
      · exact rewrite hb.1 hb.2
      · obtain ⟨u1, u2, u3⟩ := update_insert hout hroot hn hmax hobj' hb h3 h5 (by rw [List.append_assoc]; exact Forms.lastIndex_end h6)
        refine ⟨_, by rw [u1, Map.get_set, if_pos rfl], rfl, ?_, u2, u3⟩
        simp only [Option.getD_some]
        have e2 : Outline.objectText n (a ++ b!"/Outlines " ++ ref k ++ b!" >>" ++ b) = ((itoa n ++ b!" 0 obj\n") ++ a) ++
            ((47 :: b!"Outlines") ++ (b!" " ++ (natDec k.toNat ++ (b!" 0 R >>" ++ b ++ b!"\nendobj")))) := by
          unfold Outline.objectText
          rw [ref_nat hkpos]
          simp
        rw [e2]
        apply xDict_value (by decide) _ (by decide) (fun x hx => .inl (by simpa using hx))
        · refine ⟨natDec_ne_nil _, fun c hc => digit_tok c (natDec_digits _ c hc), ?_⟩
          intro hh
          have : (91 : UInt8) ∈ natDec k.toNat := List.mem_of_mem_head? hh
          exact not_mem_natDec (c := 91) (by decide) _ this
        · intro c hc
          simp at hc
          subst hc
          exact .inl (.inl rfl)
        · rw [noOcc_iff_infix]
          intro hin
          have := occ_after (p := 47 :: b!"Outlines") rfl (v := itoa n ++ b!" 0 obj\n") (by
            intro hm
            rcases List.mem_append.1 hm with hm | hm
            · exact Crypto.slash_not_itoa _ hm
            · revert hm; decide) hin
          apply h3
          exact this.trans ⟨[], b!">>" ++ b, by simp⟩
  obtain ⟨ob, c1, c2, c3, c4, c5⟩ := hcat
  refine extract_ok wenv o hinv2 hfit env henc hdel bs xs pages hi ?_ f hf k l.num hkpos (sizeAll bs) ho n hn hroot ?_ ?_ ?_ ob c1 c2 c3
    hplain c4 c5 fuel hfuel
  · intro m hm
    have := hk m hm
    omega
  · omega
  · intro hm
    have := hk n hm
    omega
  · omega

mutual
theorem shape_readBack (pages : Map Int Int) (b : Bookmark) : shape (readBack pages b) = shape b := by
  match b with
  | .mk title page dest uri children => rw [readBack, shape, shape, shapes_readBack pages children]
theorem shapes_readBack (pages : Map Int Int) (bs : List Bookmark) : shapes (readBackAll pages bs) = shapes bs := by
  match bs with
  | [] => rfl
  | b :: bs => rw [readBackAll, shapes, shapes, shape_readBack pages b, shapes_readBack pages bs]
end

/-- C81, the part that holds: what comes back has the same number of bookmarks at every place, nested in the same way. -/
theorem C81_shape (pages : Map Int Int) (bs : List Bookmark) : shapes (readBackAll pages bs) = shapes bs := shapes_readBack pages bs

theorem replace_head {c : UInt8} {s pat rep : Bytes} (h : pat.head? = some 92) (hc : c ≠ 92) :
    ∃ t, Strings.replaceAll (c :: s) pat rep = c :: t := by
  unfold Strings.replaceAll
  cases pat with
  | nil => simp at h
  | cons d pat =>
    simp only [List.head?_cons, Option.some.injEq] at h
    subst h
    rw [Strings.replaceFrom, if_neg]
    · exact ⟨_, rfl⟩
    · simp
      intro e; exact absurd e.symm hc

theorem unescape_head (s : Bytes) : ∃ t, Strings.unescapePDFString (40 :: s) = 40 :: t := by
  unfold Strings.unescapePDFString
  simp only
  obtain ⟨t1, e1⟩ := replace_head (c := 40) (s := s) (pat := b!"\\n") (rep := b!"\n") rfl (by decide)
  rw [e1]
  obtain ⟨t2, e2⟩ := replace_head (c := 40) (s := t1) (pat := b!"\\r") (rep := b!"\r") rfl (by decide)
  rw [e2]
  obtain ⟨t3, e3⟩ := replace_head (c := 40) (s := t2) (pat := b!"\\t") (rep := b!"\t") rfl (by decide)
  rw [e3]
  obtain ⟨t4, e4⟩ := replace_head (c := 40) (s := t3) (pat := b!"\\(") (rep := b!"(") rfl (by decide)
  rw [e4]
  obtain ⟨t5, e5⟩ := replace_head (c := 40) (s := t4) (pat := b!"\\)") (rep := b!")") rfl (by decide)
  rw [e5]
  exact replace_head (c := 40) (s := t5) (pat := b!"\\\\") (rep := b!"\\") rfl (by decide)

/-- C81 is violated: no bookmark comes back as it was set unless its title starts with a parenthesis (the title that comes back
starts with one); the page number that comes back is always 0, a destination that was a page is cut to a parenthesis, a bracket and a
number, and a link comes back as `/Type`. -/
theorem C81_bookmark_changed_violated (pages : Map Int Int) (title dest uri : Bytes) (page : Int) (children : List Bookmark) :
    ∃ t d u, readBack pages (.mk title page dest uri children) = .mk (40 :: t) 0 d u (readBackAll pages children) ∧
      (uri ≠ [] → d = [] → u = b!"/Type") ∧
      (∀ n, 0 < page → pages.get page = some n → d = b!"([" ++ itoa n) := by
  rw [readBack]
  have hfw : firstWord (b!"((" ++ Strings.escapePDFString title ++ b!"))") = 40 :: firstWord (b!"(" ++ Strings.escapePDFString title ++ b!"))") := by
    unfold firstWord
    rw [show b!"((" ++ Strings.escapePDFString title ++ b!"))" = 40 :: (b!"(" ++ Strings.escapePDFString title ++ b!"))") from rfl,
      List.takeWhile_cons, if_pos (by decide)]
  rw [hfw]
  obtain ⟨t, ht⟩ := unescape_head (firstWord (b!"(" ++ Strings.escapePDFString title ++ b!"))"))
  refine ⟨t, readDest pages page dest, (if readDest pages page dest = [] ∧ uri ≠ [] then b!"/Type" else []), by rw [ht], ?_, ?_⟩
  · intro hu hd
    rw [if_pos ⟨hd, hu⟩]
  · intro n hp hn
    unfold readDest destination
    rw [if_pos hp, hn]
    simp only [Option.map_some, Option.getD_some]
    have hval : asValue (b!"[" ++ itoa n ++ b!" 0 R /XYZ 0 792 null]") = b!"([" ++ itoa n ++ b!" 0 R /XYZ 0 792 null])" := by
      rw [asValue, if_neg]
      · simp
      · rintro (h | h)
        · obtain ⟨t, ht⟩ := h; simp at ht
        · obtain ⟨t, ht⟩ := h
          have := congrArg List.reverse ht
          simp at this
    rw [hval]
    have := firstWord_digits (v := b!"([" ++ itoa n) (by
      intro c hc
      rcases List.mem_append.1 hc with hc | hc
      · have : ∀ c ∈ b!"([", tokByte c = true := by decide
        exact this c hc
      · unfold itoa at hc
        split at hc
        · exact digit_tok c (natDec_digits _ c hc)
        · rcases List.mem_cons.1 hc with rfl | hc
          · decide
          · exact digit_tok c (natDec_digits _ c hc)) b!"0 R /XYZ 0 792 null])"
    simpa using this

def exAll : List OOp := exOOps ++ [.bookmarks exBookmarks [(1, 7), (2, 9)]]

theorem exAll_fits : Spec.FileFits plainEnv (updateCatalog (orun plainEnv exAll)).w where
  fair := plainEnv_fair
  table := by decide +kernel
  plain := by decide +kernel
  size := by decide +kernel
  next := by decide +kernel
  once := by
    generalize hf : (write plainEnv (updateCatalog (orun plainEnv exAll)).w).1 = F
    have key : ∀ i, i < F.length → (b!"startxref").isPrefixOf (F.drop i) = true → i = 821 := by
      subst hf; decide +kernel
    have all : ∀ i, Spec.OccursAt b!"startxref" F i → i = 821 := by
      intro i hi
      rw [occursAt_iff (by decide)] at hi
      apply key i _ (List.isPrefixOf_iff_prefix.2 hi)
      apply Classical.byContradiction; intro hn
      rw [List.drop_of_length_le (by omega)] at hi
      exact absurd hi (by decide)
    intro i j _ _ hi hj
    rw [all i hi, all j hj]
  window := by decide +kernel

theorem exAll_delimitable (m : Int) (ob : Obj) (h : (updateCatalog (orun plainEnv exAll)).w.objects.get m = some ob) :
    Spec.Delimitable (ob.content.getD []) := by
  have hm : (m, ob) ∈ (updateCatalog (orun plainEnv exAll)).w.objects :=
    (Map.get_eq_some_iff _ (oinv_update (oinv_run plainEnv exAll)).inv.nodup m ob).1 h
  have hall : ∀ c ∈ (updateCatalog (orun plainEnv exAll)).w.objects.map (fun e => e.2.content.getD []),
      index b!"endobj" c = none ∧ index b!"stream" c = none ∧ c.head? = some 60 := by decide +kernel
  obtain ⟨h1, h2, h3⟩ := hall _ (List.mem_map_of_mem hm)
  refine ⟨(absent_iff (by decide)).2 (noOcc_iff_index.2 h1), ?_, .inl ((absent_iff (by decide)).2 (noOcc_iff_index.2 h2))⟩
  intro b hb
  simp only at h3
  rw [h3] at hb
  simp only [Option.some.injEq] at hb
  subst hb
  decide

example : ∃ pdf, openPdf readEnv (owrite plainEnv (orun plainEnv exAll)).1 = .ok pdf ∧
    extractBookmarks (pdfGet readEnv pdf) pdf.root 4 = some
      [.mk b!"((One))" 0 b!"([7" [] [.mk b!"((Section))" 0 b!"/There" [] [], .mk b!"((Link))" 0 [] b!"/Type" []],
       .mk b!"((Two))" 0 b!"([9" [] []] :=
  C81_set_write_extract_partial plainEnv exOOps exBookmarks (by simp [exBookmarks]) [(1, 7), (2, 9)] 1
    b!"<</Type/Catalog/Pages 2 0 R/Lang(en)>>" (by decide) (by decide +kernel) rfl
    (.inl ⟨⟨b!"<<", b!"/Catalog/Pages 2 0 R/Lang(en)>>", by decide⟩, ⟨b!"<</Type/Catalog", b!" 2 0 R/Lang(en)>>", by decide⟩⟩)
    (by
      simp only [exBookmarks, PlainAll, Plain, readKeys]
      decide +kernel)
    exAll_fits (fun m ob h _ => exAll_delimitable m ob h) readEnv rfl 4 (by decide)

/-! ### C82 -/

theorem follow_mono {go go' : Bytes → Option (Option (List Bookmark))} {r : Bytes} {l : List Bookmark}
    (h : ∀ r x, go r = some x → go' r = some x) (hf : follow go r = some l) : follow go' r = some l := by
  unfold follow at hf ⊢
  split
  · rename_i hr; rw [if_pos hr] at hf; exact hf
  · rename_i hr
    rw [if_neg hr] at hf
    cases hg : go r with
    | none => rw [hg] at hf; simp at hf
    | some x => rw [hg] at hf; rw [h r x hg]; exact hf

theorem readItems_step (get : Int → Option Bytes) (fuel : Nat) :
    ∀ (r : Bytes) (x : Option (List Bookmark)), readItems get fuel r = some x → readItems get (fuel + 1) r = some x := by
  induction fuel with
  | zero => intro r x h; simp [readItems] at h
  | succ fuel ih =>
    intro r x h
    rw [readItems] at h ⊢
    split
    · rename_i hp; rw [hp] at h; exact h
    · rename_i n hp
      rw [hp] at h
      simp only at h
      split
      · rename_i hg; rw [hg] at h; exact h
      · rename_i t hg
        rw [hg] at h
        simp only at h
        cases hk : follow (readItems get fuel) (xDictValue t b!"/First") with
        | none => rw [hk] at h; simp at h
        | some kids =>
          rw [hk] at h
          rw [follow_mono ih hk]
          simp only [Option.bind_some] at h ⊢
          cases hn : follow (readItems get fuel) (xDictValue t b!"/Next") with
          | none => rw [hn] at h; simp at h
          | some next =>
            rw [hn] at h
            rw [follow_mono ih hn]
            exact h

/-- The bound on the recursion in the model plays no role: a result is the result for every larger bound. -/
theorem C82_bound_irrelevant (get : Int → Option Bytes) (fuel fuel' : Nat) (h : fuel ≤ fuel') (r : Bytes) (x : Option (List Bookmark))
    (hr : readItems get fuel r = some x) : readItems get fuel' r = some x := by
  induction h with
  | refl => exact hr
  | step _ ih => exact readItems_step get _ r x ih

/-- C82 (partial: documents without cycles): if the items can be ranked so that the first child and the next item of every item rank
lower, the extraction finishes, from every item. -/
theorem C82_acyclic_terminates_partial (get : Int → Option Bytes) (rank : Int → Nat)
    (h : ∀ n t m, get n = some t →
      (parseObjectRef (xDictValue t b!"/First") = some m ∨ parseObjectRef (xDictValue t b!"/Next") = some m) → rank m < rank n)
    (r : Bytes) : ∃ fuel x, readItems get fuel r = some x := by
  have key : ∀ k r, (∀ n, parseObjectRef r = some n → rank n < k) → ∃ x, readItems get (k + 1) r = some x := by
    intro k
    induction k with
    | zero =>
      intro r hr
      rw [readItems]
      cases hp : parseObjectRef r with
      | none => exact ⟨_, rfl⟩
      | some n => have := hr n hp; omega
    | succ k ih =>
      intro r hr
      rw [readItems]
      cases hp : parseObjectRef r with
      | none => exact ⟨_, rfl⟩
      | some n =>
        simp only
        cases hg : get n with
        | none => exact ⟨_, rfl⟩
        | some t =>
          simp only
          have hrk := hr n hp
          have fol : ∀ v, (∀ m, parseObjectRef v = some m → rank m < rank n) → ∃ l, follow (readItems get (k + 1)) v = some l := by
            intro v hv
            unfold follow
            split
            · exact ⟨_, rfl⟩
            · obtain ⟨x, hx⟩ := ih v (fun m hm => by have := hv m hm; omega)
              rw [hx]; exact ⟨_, rfl⟩
          obtain ⟨a, ha⟩ := fol _ (fun m hm => h n t m hg (.inl hm))
          obtain ⟨b, hb⟩ := fol _ (fun m hm => h n t m hg (.inr hm))
          rw [ha, Option.bind_some, hb]
          exact ⟨_, rfl⟩
  cases hp : parseObjectRef r with
  | none => obtain ⟨x, hx⟩ := key 0 r (by rw [hp]; simp); exact ⟨_, x, hx⟩
  | some n => obtain ⟨x, hx⟩ := key (rank n + 1) r (by rw [hp]; intro m hm; simp only [Option.some.injEq] at hm; subst hm; omega); exact ⟨_, x, hx⟩

/-- C82 is violated: if some items lead to each other (each has a first child or a next item among them), the extraction started at
any of them does not finish, however deep it may recurse. -/
theorem C82_cycle_never_finishes_violated (get : Int → Option Bytes) (S : Int → Prop)
    (h : ∀ n, S n → ∃ t m, get n = some t ∧ S m ∧
      (parseObjectRef (xDictValue t b!"/First") = some m ∨ parseObjectRef (xDictValue t b!"/Next") = some m))
    (r : Bytes) (n : Int) (hr : parseObjectRef r = some n) (hn : S n) (fuel : Nat) : readItems get fuel r = none := by
  induction fuel generalizing r n with
  | zero => rfl
  | succ fuel ih =>
    rw [readItems, hr]
    simp only
    obtain ⟨t, m, hg, hm, hl⟩ := h n hn
    rw [hg]
    simp only
    have fol : ∀ v, parseObjectRef v = some m → follow (readItems get fuel) v = none := by
      intro v hv
      unfold follow
      rw [if_neg (by intro e; subst e; exact absurd hv (by simp [show parseObjectRef [] = none from rfl])), ih v m hv hm]
      rfl
    rcases hl with hl | hl
    · rw [fol _ hl]; rfl
    · rw [fol _ hl]
      cases follow (readItems get fuel) (xDictValue t b!"/First") <;> rfl

/-- C82 is violated for a file the library writes itself: one bookmark with the title `x /Next 3 0 R`. -/
def loopOps : List OOp := exOOps ++ [.bookmarks [.mk b!"x /Next 3 0 R" 0 [] [] []] []]

theorem C82_written_title_never_finishes_violated :
    ∃ pdf, openPdf readEnv (owrite plainEnv (orun plainEnv loopOps)).1 = .ok pdf ∧
      ∀ fuel, extractBookmarks (pdfGet readEnv pdf) pdf.root fuel = none := by
  have h1 : ∃ pdf, openPdf readEnv (owrite plainEnv (orun plainEnv loopOps)).1 = .ok pdf ∧ pdf.root = b!"1 0 R" ∧
      pdfGet readEnv pdf 1 = some b!"1 0 obj\n<</Outlines 4 0 R /Pages (2) /Type /Catalog >>\nendobj" ∧
      pdfGet readEnv pdf 4 = some b!"4 0 obj\n<</Count 1 /First 3 0 R /Last 3 0 R /Type /Outlines >>\nendobj" ∧
      pdfGet readEnv pdf 3 = some b!"3 0 obj\n<</Title ((x /Next 3 0 R)) >>\nendobj" := by
    have key : (openPdf readEnv (owrite plainEnv (orun plainEnv loopOps)).1).bind (fun pdf =>
        .ok (pdf.root, pdfGet readEnv pdf 1, pdfGet readEnv pdf 4, pdfGet readEnv pdf 3)) =
        .ok (b!"1 0 R", some b!"1 0 obj\n<</Outlines 4 0 R /Pages (2) /Type /Catalog >>\nendobj",
          some b!"4 0 obj\n<</Count 1 /First 3 0 R /Last 3 0 R /Type /Outlines >>\nendobj",
          some b!"3 0 obj\n<</Title ((x /Next 3 0 R)) >>\nendobj") := by decide +kernel
    cases ho : openPdf readEnv (owrite plainEnv (orun plainEnv loopOps)).1 with
    | ok pdf =>
      rw [ho] at key
      simp only [Res.bind, Res.ok.injEq, Prod.mk.injEq] at key
      exact ⟨pdf, rfl, key⟩
    | err => rw [ho] at key; simp [Res.bind] at key
    | panic => rw [ho] at key; simp [Res.bind] at key
  obtain ⟨pdf, ho, hr, g1, g4, g3⟩ := h1
  refine ⟨pdf, ho, fun fuel => ?_⟩
  unfold extractBookmarks
  rw [hr, if_neg (by decide), show parseObjectRef b!"1 0 R" = some 1 from by decide +kernel, Option.bind_some, g1]
  simp only
  rw [show parseObjectRef (xDictValue b!"1 0 obj\n<</Outlines 4 0 R /Pages (2) /Type /Catalog >>\nendobj" b!"/Outlines") = some 4 from by
    decide +kernel, Option.bind_some, g4]
  simp only
  rw [show xDictValue b!"4 0 obj\n<</Count 1 /First 3 0 R /Last 3 0 R /Type /Outlines >>\nendobj" b!"/First" = b!"3" from by decide +kernel]
  unfold follow
  rw [if_neg (by decide), C82_cycle_never_finishes_violated (pdfGet readEnv pdf) (· = 3) (fun n hn => by
    subst hn
    exact ⟨_, 3, g3, rfl, .inr (by decide +kernel)⟩) b!"3" 3 (by decide +kernel) rfl fuel]
  rfl

example : ∃ fuel x, readItems (fun n => if n = 1 then some b!"1 0 obj\n<</Title (a) /First 2 0 R >>\nendobj"
    else if n = 2 then some b!"2 0 obj\n<</Title (b) >>\nendobj" else none) fuel b!"1 0 R" = some x :=
  C82_acyclic_terminates_partial _ (fun n => if n = 1 then 1 else 0) (by
    intro n t m hg hm
    split at hg
    · rename_i hn
      simp only [Option.some.injEq] at hg
      subst hg hn
      have hf : parseObjectRef (xDictValue b!"1 0 obj\n<</Title (a) /First 2 0 R >>\nendobj" b!"/First") = some 2 := by decide +kernel
      have hx : parseObjectRef (xDictValue b!"1 0 obj\n<</Title (a) /First 2 0 R >>\nendobj" b!"/Next") = none := by decide +kernel
      rw [hf, hx] at hm
      simp at hm
      subst hm
      decide
    · split at hg
      · rename_i hn
        simp only [Option.some.injEq] at hg
        subst hg hn
        have hf : parseObjectRef (xDictValue b!"2 0 obj\n<</Title (b) >>\nendobj" b!"/First") = none := by decide +kernel
        have hx : parseObjectRef (xDictValue b!"2 0 obj\n<</Title (b) >>\nendobj" b!"/Next") = none := by decide +kernel
        rw [hf, hx] at hm
        simp at hm
      · simp at hg) b!"1 0 R"

end Pdfer.Props
